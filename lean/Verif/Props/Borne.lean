import Verif.Props.Loaded
import Verif.Props.Pull
import Verif.Spec.Part

/-! # Contact forces act only in the parts of the mat that connect the plates (C136) -/

set_option linter.unusedSectionVars false
set_option linter.unusedSimpArgs false

namespace Fibermat
variable {K : Type} [Field K] [LinearOrder K] [IsStrictOrderedRing K]
open Spec

variable {mat : Mat K} {mesh : Mesh K} {lmin lmax : Option K} {coupling : K} {o : Opts K} {perm : Option (List ℕ)}
  {S : Sys K} {recs : List (Rec K)} {stop : Stop}

section
variable (h : solve mat mesh lmin lmax coupling o perm = .ok (S, recs, stop)) (hm : GoodMat mat)
    (hv : ValidMesh mesh.frame) (hp : PositiveLengths mesh.rows lmin lmax) (hcoup : |coupling| ≤ 1)
    (hstiff : |coupling| < 1 ∨ ∀ f ∈ mat.fibers, f.E = ⊤) (htol : 0 ≤ o.tol) (hlin : ExactLin o.lin) (hperm : PermOf S.n perm)
include h hm hv hp hcoup hstiff htol hlin hperm

/-- C136: a beam that no chain connects with both plates at a record is neither rotated nor deformed at the next one. -/
theorem C136_undeformed (k : ℕ) (a b : Rec K) (ha : recs[k]? = some a) (hb : recs[k + 1]? = some b) {i : ℕ} (hi : StartsBeam mesh.rows i)
    (hn : ¬ (Hung mat mesh.rows o.tol a.Z a.x i ∧ Based mat mesh.rows o.tol a.x i)) :
    b.x (2 * succNode mesh.rows i) = b.x (2 * i) ∧ b.x (2 * i + 1) = 0 ∧ b.x (2 * succNode mesh.rows i + 1) = 0 := by
  obtain ⟨Km, cs, hK, hC, -, -⟩ := solve_run h
  obtain ⟨-, ⟨L, hL⟩, -⟩ := C65_lengths hK
  induction k generalizing a b with
  | zero =>
    obtain ⟨-, a0, ha0, hx0, -, hZ0, -⟩ := C40_itermax h
    rw [ha] at ha0; cases ha0
    obtain ⟨v, hx, hf, hbeam⟩ := off_beams h hm hv hp hcoup hL htol hlin hperm hstiff 0 a b ha hb
    obtain ⟨e1, e2, e3⟩ := hbeam i hi hn
    simp only [hx, hx0, e1, e2, e3]
    simp
  | succ k ih =>
    have hk := (List.getElem?_eq_some_iff.1 ha).1
    have hp' : recs[k]? = some (recs[k]'(by omega)) := List.getElem?_eq_getElem _
    obtain ⟨-, q1, q2⟩ := C135_kept h hm hp htol hlin hperm k (k + 1) (by omega) _ a hp' ha
    obtain ⟨d1, d2, d3⟩ := ih _ a hp' ha (fun hh => hn ⟨q1 i hh.1, q2 i hh.2⟩)
    obtain ⟨v, hx, hf, hbeam⟩ := off_beams h hm hv hp hcoup hL htol hlin hperm hstiff (k + 1) a b ha hb
    obtain ⟨e1, e2, e3⟩ := hbeam i hi hn
    simp only [hx, d1, d2, d3, e1, e2, e3]
    simp

/-- The forces on a node that no chain connects with both plates are in balance. -/
theorem C136_balance {cs : ConstraintSys K} (hC : constraint mat mesh = .ok cs) (k : ℕ) (a b : Rec K) (ha : recs[k]? = some a)
    (hb : recs[k + 1]? = some b) {i : ℕ} (hi : i < mesh.rows.length)
    (hn : ¬ (Hung mat mesh.rows o.tol a.Z a.x i ∧ Based mat mesh.rows o.tol a.x i)) :
    contactForce cs.C (fun j => b.x (2 * mesh.rows.length + j)) i = 0 := by
  have hund := fun m => C136_undeformed h hm hv hp hcoup hstiff htol hlin hperm k a b ha hb (i := m)
  obtain ⟨Km, bl, hs, l, has, hpos, hbl, hc, rfl, hN, hnK, hn', hnC, hcols, hZ0, hsd, rfl⟩ := solve_lengths h hm hp hC
  have hat : ∀ p ∈ bl, p.1.i = i ∨ p.1.j = i →
      b.x (2 * p.1.j) = b.x (2 * p.1.i) ∧ b.x (2 * p.1.i + 1) = 0 ∧ b.x (2 * p.1.j + 1) = 0 := by
    intro p hpm hend
    obtain ⟨r1, q1, h1, h2, h3, -, -, h6⟩ := (has.beam p hpm).rows
    have hlt := (has.beam p hpm).lt
    have hst : StartsBeam mesh.rows p.1.i := ⟨r1, h1, by rw [h3]; omega⟩
    have hsu : succNode mesh.rows p.1.i = p.1.j := by
      unfold succNode
      rw [h1, Option.map_some, Option.getD_some, h3, Int.toNat_natCast]
    have hl := linked_beam (mat := mat) (tol := o.tol) (u := a.x) hst
    rw [hsu] at hl
    have := hund p.1.i hst (by
      rcases hend with rfl | rfl
      · exact hn
      · rwa [hung_linked (Z := a.Z) hl, based_linked hl])
    rwa [hsu] at this
  have hbal := hsd.balance_exact (o := { o with perm := perm.getD (List.range (assemble Km cs).n) }) hlin (permOf_getD hperm) htol (r := 2 * i)
    (by rw [hnK]; omega) (by rintro ⟨p, -, -, h1 | h1⟩ <;> omega) hb
  rw [apply_force hn' _ (by omega), spring_row has (fun p hpm hend => Or.inr (hat p hpm hend).2) hi] at hbal
  have hz : (bl.map (fun p => stiff0 p.1.fiber p.2 * ((if p.1.i = i then b.x (2 * p.1.i) - b.x (2 * p.1.j) else 0) +
        (if p.1.j = i then b.x (2 * p.1.j) - b.x (2 * p.1.i) else 0)))).sum = 0 := by
    rw [List.map_congr_left (g := fun _ => (0 : K)), List.map_const', List.sum_replicate, smul_zero]
    intro p hpm
    by_cases hend : p.1.i = i ∨ p.1.j = i
    · rw [(hat p hpm hend).1]
      simp
    · rw [not_or] at hend
      rw [if_neg hend.1, if_neg hend.2, add_zero, mul_zero]
  unfold contactForce
  rw [hnC]
  rw [hz] at hbal
  linarith

/-- C136: the floor, a contact and the plate press only on nodes that chains connected with both plates at the record before. -/
theorem C136_borne {cs : ConstraintSys K} (hC : constraint mat mesh = .ok cs) (k : ℕ) (a b : Rec K) (ha : recs[k]? = some a)
    (hb : recs[k + 1]? = some b) {q i j : ℕ} (hq : ContactRows cs.C q i j) :
    (b.x (2 * mesh.rows.length + 3 * q) ≠ 0 → Hung mat mesh.rows o.tol a.Z a.x i ∧ Based mat mesh.rows o.tol a.x i) ∧
    (b.x (2 * mesh.rows.length + (3 * q + 1)) ≠ 0 → Chained mat mesh.rows o.tol a.x i j ∧
      Hung mat mesh.rows o.tol a.Z a.x i ∧ Based mat mesh.rows o.tol a.x i) ∧
    (b.x (2 * mesh.rows.length + (3 * q + 2)) ≠ 0 → Hung mat mesh.rows o.tol a.Z a.x j ∧ Based mat mesh.rows o.tol a.x j) := by
  have hcr : ConstraintsReciprocal mesh.rows := by have := hv.constraints; rwa [rows_meshFrame] at this
  have hforce := fun m hm' => C136_balance h hm hv hp hcoup hstiff htol hlin hperm hC k a b ha hb (i := m) hm'
  obtain ⟨Km, bl, hs, l, has, hpos, hbl, hc, rfl, hN, hnK, hn, hnC, hcols, hZ0, hsd, rfl⟩ := solve_lengths h hm hp hC
  obtain ⟨x, hqx, rfl, rfl⟩ := rows_contact hc hq
  have hxm := List.mem_of_getElem? hqx
  have hlt := hc.lt x hxm
  have hql := (List.getElem?_eq_some_iff.1 hqx).1
  obtain ⟨dx, t, s, hst⟩ := hsd.next ha hb
  have hi := hsd.inv ha
  have hpair := hc.isPair hxm
  have hoff : ∀ d, d < 3 → b.x (2 * mesh.rows.length + (3 * q + d)) ≠ 0 →
      (d = 1 → x.i ≠ x.j) ∧ geoGap mat mesh.rows a.Z a.x x d ≤ o.tol := by
    intro d hd hne
    rw [← hc.active hN hsd hn hi hqx hd o.tol]
    by_contra hcon
    have hcon : (assemble Km cs).active o.tol a.x a.q (2 * mesh.rows.length + (3 * q + d)) = false := by simpa using hcon
    have h0 : a.x (2 * mesh.rows.length + (3 * q + d)) = 0 := by
      by_contra h0
      have := hsd.support (o := { o with perm := perm.getD (List.range (assemble Km cs).n) }) hlin (permOf_getD hperm) (by omega) ha h0
      rw [hcon] at this
      exact Bool.false_ne_true this
    apply hne
    rw [hst.x, h0, direction_zero hst.dir hcon]
    ring
  have on0 : b.x (2 * mesh.rows.length + 3 * q) ≠ 0 → floorGap mat mesh.rows a.x x.i ≤ o.tol := fun hg => by
    simpa [geoGap] using (hoff 0 (by omega) hg).2
  have on1 : b.x (2 * mesh.rows.length + (3 * q + 1)) ≠ 0 → x.i ≠ x.j ∧ pairGap mat mesh.rows a.x x.i x.j ≤ o.tol := fun hg =>
    ⟨(hoff 1 (by omega) hg).1 rfl, by simpa [geoGap] using (hoff 1 (by omega) hg).2⟩
  have on2 : b.x (2 * mesh.rows.length + (3 * q + 2)) ≠ 0 → roofGap mat mesh.rows a.Z a.x x.j ≤ o.tol := fun hg => by
    simpa [geoGap] using (hoff 2 (by omega) hg).2
  have base : b.x (2 * mesh.rows.length + 3 * q) ≠ 0 → Based mat mesh.rows o.tol a.x x.i := fun hg =>
    ⟨x.i, ⟨x.j, hpair, on0 hg⟩, Relation.ReflTransGen.refl⟩
  have hung : b.x (2 * mesh.rows.length + (3 * q + 2)) ≠ 0 → Hung mat mesh.rows o.tol a.Z a.x x.j := fun hg =>
    ⟨x.j, ⟨x.i, hpair, on2 hg⟩, Relation.ReflTransGen.refl⟩
  have hcol : ∀ m, m = x.i ∨ m = x.j → ¬ (Hung mat mesh.rows o.tol a.Z a.x m ∧ Based mat mesh.rows o.tol a.x m) →
      (if x.i = m then b.x (2 * mesh.rows.length + (3 * q + 1)) - b.x (2 * mesh.rows.length + 3 * q) else 0) +
        (if x.j = m then b.x (2 * mesh.rows.length + (3 * q + 2)) - b.x (2 * mesh.rows.length + (3 * q + 1)) else 0) = 0 := by
    intro m hm' hnb
    have h1 := hforce m (by rcases hm' with rfl | rfl <;> omega) hnb
    unfold contactForce at h1
    rw [hnC, contact_column hc hcr hqx hm' (fun r => b.x (2 * mesh.rows.length + r))] at h1
    linarith
  have hlink : b.x (2 * mesh.rows.length + (3 * q + 1)) ≠ 0 → Chained mat mesh.rows o.tol a.x x.i x.j := fun hg =>
    linked_pair hpair (on1 hg).1 (on1 hg).2
  -- a force between the nodes
  have mid : b.x (2 * mesh.rows.length + (3 * q + 1)) ≠ 0 → Hung mat mesh.rows o.tol a.Z a.x x.i ∧ Based mat mesh.rows o.tol a.x x.i := by
    intro hg
    by_contra hnb
    have hl := hlink hg
    have hne := (on1 hg).1
    have bi := hcol x.i (Or.inl rfl) hnb
    have bj := hcol x.j (Or.inr rfl) (by rwa [← hung_linked hl, ← based_linked hl])
    rw [if_pos rfl, if_neg (fun e => hne e.symm)] at bi
    rw [if_neg hne, if_pos rfl] at bj
    have h0 : b.x (2 * mesh.rows.length + 3 * q) ≠ 0 := fun e => hg (by rw [e] at bi; linarith)
    have h2 : b.x (2 * mesh.rows.length + (3 * q + 2)) ≠ 0 := fun e => hg (by rw [e] at bj; linarith)
    exact hnb ⟨(hung_linked hl).2 (hung h2), base h0⟩
  refine ⟨fun h0 => ?_, fun h1 => ⟨hlink h1, mid h1⟩, fun h2 => ?_⟩
  · by_contra hnb
    have m0 : b.x (2 * mesh.rows.length + (3 * q + 1)) = 0 := by
      by_contra hg
      exact hnb (mid hg)
    have bi := hcol x.i (Or.inl rfl) hnb
    rw [if_pos rfl, m0] at bi
    by_cases hne : x.j = x.i
    · rw [if_pos hne] at bi
      have h2 : b.x (2 * mesh.rows.length + (3 * q + 2)) ≠ 0 := fun e => h0 (by rw [e] at bi; linarith)
      have := hung h2
      rw [hne] at this
      exact hnb ⟨this, base h0⟩
    · rw [if_neg hne] at bi
      exact h0 (by linarith)
  · by_contra hnb
    have m0 : b.x (2 * mesh.rows.length + (3 * q + 1)) = 0 := by
      by_contra hg
      have hl := hlink hg
      have := mid hg
      rw [hung_linked hl, based_linked hl] at this
      exact hnb this
    have bj := hcol x.j (Or.inr rfl) hnb
    rw [if_pos rfl, m0] at bj
    by_cases hne : x.i = x.j
    · rw [if_pos hne] at bj
      have h0 : b.x (2 * mesh.rows.length + 3 * q) ≠ 0 := fun e => h2 (by rw [e] at bj; linarith)
      have := base h0
      rw [hne] at this
      exact hnb ⟨hung h2, this⟩
    · rw [if_neg hne] at bj
      exact h2 (by linarith)

/-- A motion that is that of the step on whole parts and rest elsewhere works against the plate alone. -/
theorem part_power {L : ℕ → K} (hL : BeamLengths mesh.rows lmin lmax L) {cs : ConstraintSys K} (hC : constraint mat mesh = .ok cs)
    (k : ℕ) (a b : Rec K) (ha : recs[k]? = some a) (hb : recs[k + 1]? = some b) (v : ℕ → K)
    (hx : ∀ r, b.x r = a.x r - (a.Z - b.Z) * v r) (hf : Follows mat mesh.rows o.tol a.Z a.x v)
    (A : Finset ℕ) (hA : WholeParts mat mesh.rows o.tol a.x A) :
    partForce cs.C (fun j => b.x (2 * mesh.rows.length + j)) A 2 - partForce cs.C (fun j => a.x (2 * mesh.rows.length + j)) A 2 =
      (a.Z - b.Z) * elasticEnergy mat mesh.rows coupling L (fun r => if r / 2 ∈ A then v r else 0) ∧
    partForce cs.C (fun j => b.x (2 * mesh.rows.length + j)) A 2 - partForce cs.C (fun j => b.x (2 * mesh.rows.length + j)) A 0 =
      partForce cs.C (fun j => a.x (2 * mesh.rows.length + j)) A 2 - partForce cs.C (fun j => a.x (2 * mesh.rows.length + j)) A 0 := by
  obtain ⟨Km, bl, hs, l, has, hpos, hbl, hc, rfl, hN, hnK, hn, hnC, hcols, hZ0, hsd, rfl⟩ := solve_lengths h hm hp hC
  set o' : Opts K := { o with perm := perm.getD (List.range (assemble Km cs).n) } with ho'
  obtain ⟨dx, t, s, hst⟩ := hsd.next ha hb
  have hi := hsd.inv ha
  have ht := hst.pos htol
  have htt : a.Z - b.Z = t := by rw [hst.Z]; ring
  have hvd : v = dx := by
    funext r
    have h1 := hst.x r
    rw [hx r, htt] at h1
    have h2 : t * (v r - dx r) = 0 := by linarith
    have := (mul_eq_zero.1 h2).resolve_left ht.ne'
    linarith
  subst hvd
  have d1 : ∀ i : ℕ, (2 * i) / 2 = i := fun i => by omega
  have d2 : ∀ i : ℕ, (2 * i + 1) / 2 = i := fun i => by omega
  have d3 : ∀ i : ℕ, (2 * i) % 2 = 0 := fun i => by omega
  have d4 : ∀ i : ℕ, ¬ (2 * i + 1) % 2 = 0 := fun i => by omega
  -- both ends of a beam belong to the parts or none does
  have hbeam : ∀ p ∈ bl, (p.1.i ∈ A ↔ p.1.j ∈ A) := by
    intro p hpm
    obtain ⟨r1, q1, h1, h2, h3, -, -, h6⟩ := (has.beam p hpm).rows
    have hlt := (has.beam p hpm).lt
    refine hA _ _ (Relation.ReflTransGen.single (Or.inl (Or.inl ⟨⟨r1, h1, by rw [h3]; omega⟩, ?_⟩)))
    unfold succNode
    rw [h1, Option.map_some, Option.getD_some, h3, Int.toNat_natCast]
  -- work of the force rates
  have hwork : ∀ w : ℕ → K, (∀ r, Frozen bl r → w r = 0) →
      ∑ r ∈ Finset.range (2 * mesh.rows.length), w r * ∑ s ∈ Finset.range (2 * mesh.rows.length), table mesh.rows coupling bl r s * v s =
        - ∑ j ∈ Finset.range (3 * l.length), rowDot cs.C j w * v (2 * mesh.rows.length + j) := fun w hw =>
    virtual_work (T := table mesh.rows coupling bl) (C := cs.C) (rigid := Frozen bl) hn hcols (y := v) (v := w)
      (fun r hr hg => hsd.dir_balance (o := o') hlin (permOf_getD hperm) htol ha hst.dir (by omega) hg) hw
  have hassoc : ∀ u w : ℕ → K, ∑ r ∈ Finset.range (2 * mesh.rows.length), u r * ∑ s ∈ Finset.range (2 * mesh.rows.length),
      table mesh.rows coupling bl r s * w s = ∑ r ∈ Finset.range (2 * mesh.rows.length), ∑ s ∈ Finset.range (2 * mesh.rows.length),
        u r * table mesh.rows coupling bl r s * w s := by
    intro u w
    apply Finset.sum_congr rfl
    intro r _
    rw [Finset.mul_sum]
    exact Finset.sum_congr rfl (fun s _ => by ring)
  -- a row whose force changes is that of a closed gap
  have hrow : ∀ j, j < 3 * l.length → v (2 * mesh.rows.length + j) ≠ 0 → ∃ (x : Contact K) (d : ℕ), d < 3 ∧ j % 3 = d ∧
      (∀ u : ℕ → K, rowDot cs.C j u = if d = 0 then - u (2 * x.i) else if d = 1 then u (2 * x.i) - u (2 * x.j) else u (2 * x.j)) ∧
      (d = 0 → v (2 * x.i) = 0) ∧ (d = 1 → v (2 * x.i) = v (2 * x.j) ∧ (x.i ∈ A ↔ x.j ∈ A)) ∧ (d = 2 → v (2 * x.j) = 1) := by
    intro j hj hne
    obtain ⟨q, d, hd, rfl⟩ : ∃ q d, d < 3 ∧ j = 3 * q + d := ⟨j / 3, j % 3, by omega, by omega⟩
    have hq : l[q]? = some l[q] := List.getElem?_eq_getElem (by omega)
    generalize l[q] = x at hq
    have hact : (assemble Km cs).active o.tol a.x a.q (2 * mesh.rows.length + (3 * q + d)) = true := by
      by_contra hcon
      exact hne (direction_zero hst.dir (by simpa using hcon))
    obtain ⟨g1, g2⟩ := (hc.active hN hsd hn hi hq hd o.tol).1 hact
    have hpair := hc.isPair (List.mem_of_getElem? hq)
    obtain ⟨f0, f1, f2⟩ := hf _ _ hpair
    refine ⟨x, d, hd, by omega, fun u => hc.row hq hd u, ?_, ?_, ?_⟩
    · rintro rfl
      exact f0 (by simpa [geoGap] using g2)
    · rintro rfl
      have g3 : pairGap mat mesh.rows a.x x.i x.j ≤ o.tol := by simpa [geoGap] using g2
      exact ⟨f1 (g1 rfl) g3, hA _ _ (linked_pair hpair (g1 rfl) g3)⟩
    · rintro rfl
      exact f2 (by simpa [geoGap] using g2)
  have hdiff : ∀ d, partForce cs.C (fun j => b.x (2 * mesh.rows.length + j)) A d - partForce cs.C (fun j => a.x (2 * mesh.rows.length + j)) A d =
      - (t * ∑ j ∈ Finset.range (3 * l.length), if j % 3 = d then |rowDot cs.C j (shift A)| * v (2 * mesh.rows.length + j) else 0) := by
    intro d
    unfold partForce
    rw [hnC, ← Finset.sum_sub_distrib, Finset.mul_sum, ← Finset.sum_neg_distrib]
    apply Finset.sum_congr rfl
    intro j _
    beta_reduce
    rw [hst.x]
    split_ifs <;> ring
  constructor
  · have hw := hwork (fun r => if r / 2 ∈ A then v r else 0) (fun r hr => by
      simp only [hsd.dir_frozen hi hst.dir hr, ite_self])
    rw [hdiff, htt, ← has.energy_doc hm hpos ((hbl L).1 hL), energy_eq_bilin, hassoc]
    have e : ∑ r ∈ Finset.range (2 * mesh.rows.length), ∑ s ∈ Finset.range (2 * mesh.rows.length),
        (if r / 2 ∈ A then v r else 0) * table mesh.rows coupling bl r s * (if s / 2 ∈ A then v s else 0) =
        ∑ r ∈ Finset.range (2 * mesh.rows.length), ∑ s ∈ Finset.range (2 * mesh.rows.length),
        (if r / 2 ∈ A then v r else 0) * table mesh.rows coupling bl r s * v s := by
      rw [has.bilin (fun r => if r / 2 ∈ A then v r else 0) (fun r => if r / 2 ∈ A then v r else 0),
        has.bilin (fun r => if r / 2 ∈ A then v r else 0) v]
      congr 1
      apply List.map_congr_left
      intro p hpm
      refine (beam_bilin _ _ _ _ _ _ (fun r => if r / 2 ∈ A then v r else 0) (fun r => if r / 2 ∈ A then v r else 0)).trans
        (Eq.trans ?_ (beam_bilin _ _ _ _ _ _ (fun r => if r / 2 ∈ A then v r else 0) v).symm)
      simp only [d1, d2, ← hbeam p hpm]
      by_cases hiA : p.1.i ∈ A <;> simp [hiA]
    rw [e, ← hassoc, hw, mul_neg, neg_inj]
    congr 1
    apply Finset.sum_congr rfl
    intro j hj
    by_cases hne : v (2 * mesh.rows.length + j) = 0
    · rw [hne]; simp
    · obtain ⟨x, d, hd, hjd, hr, r0, r1, r2⟩ := hrow j (Finset.mem_range.1 hj) hne
      rw [hr, hr, hjd]
      simp only [d1, d3, true_and, shift]
      interval_cases d
      · simp [r0 rfl]
      · obtain ⟨k1, k2⟩ := r1 rfl
        simp [k1, k2]
      · simp only [if_true, OfNat.ofNat_ne_zero, OfNat.ofNat_ne_one, if_false, r2 rfl]
        by_cases hjA : x.j ∈ A <;> simp [hjA]
  · have hw := hwork (shift A) (fun r hr => by
      have := frozen_odd _ hr
      unfold shift
      rw [if_neg (by omega)])
    rw [bilin_symm _ (table_symm _ _ _)] at hw
    have hz : ∀ r, ∑ s ∈ Finset.range (2 * mesh.rows.length), table mesh.rows coupling bl r s * shift A s = 0 := by
      apply has.row
      intro p hpm u
      rw [beam_bilin]
      simp only [shift, d1, d2, d3, d4, true_and, false_and, if_false, ← hbeam p hpm]
      ring
    simp only [hz, mul_zero, Finset.sum_const_zero] at hw
    have e2 := hdiff 2
    have e0 := hdiff 0
    have e : ∑ j ∈ Finset.range (3 * l.length), rowDot cs.C j (shift A) * v (2 * mesh.rows.length + j) =
        (∑ j ∈ Finset.range (3 * l.length), if j % 3 = 2 then |rowDot cs.C j (shift A)| * v (2 * mesh.rows.length + j) else 0) -
        ∑ j ∈ Finset.range (3 * l.length), if j % 3 = 0 then |rowDot cs.C j (shift A)| * v (2 * mesh.rows.length + j) else 0 := by
      rw [← Finset.sum_sub_distrib]
      apply Finset.sum_congr rfl
      intro j hj
      by_cases hne : v (2 * mesh.rows.length + j) = 0
      · rw [hne]; simp
      · obtain ⟨x, d, hd, hjd, hr, r0, r1, r2⟩ := hrow j (Finset.mem_range.1 hj) hne
        rw [hr, hjd]
        simp only [shift, d1, d3, true_and]
        interval_cases d
        · by_cases hiA : x.i ∈ A <;> simp [hiA]
        · obtain ⟨k1, k2⟩ := r1 rfl
          simp [k2]
        · by_cases hjA : x.j ∈ A <;> simp [hjA]
    have hz' : (∑ j ∈ Finset.range (3 * l.length), if j % 3 = 2 then |rowDot cs.C j (shift A)| * v (2 * mesh.rows.length + j) else 0) =
        ∑ j ∈ Finset.range (3 * l.length), if j % 3 = 0 then |rowDot cs.C j (shift A)| * v (2 * mesh.rows.length + j) else 0 := by
      rw [e] at hw
      linarith
    rw [hz'] at e2
    linarith

/-- C136: the force of the plate on whole parts of the mat grows in a step exactly if one of them connects the plates, and it does not
decrease. -/
theorem C136_grows {cs : ConstraintSys K} (hC : constraint mat mesh = .ok cs) (k : ℕ) (a b : Rec K) (ha : recs[k]? = some a)
    (hb : recs[k + 1]? = some b) (A : Finset ℕ) (hA : WholeParts mat mesh.rows o.tol a.x A) :
    partForce cs.C (fun j => a.x (2 * mesh.rows.length + j)) A 2 ≤ partForce cs.C (fun j => b.x (2 * mesh.rows.length + j)) A 2 ∧
    (partForce cs.C (fun j => a.x (2 * mesh.rows.length + j)) A 2 < partForce cs.C (fun j => b.x (2 * mesh.rows.length + j)) A 2 ↔
      ∃ i ∈ A, Hung mat mesh.rows o.tol a.Z a.x i ∧ Based mat mesh.rows o.tol a.x i) := by
  obtain ⟨Km, -, hK, -, -, -⟩ := solve_run h
  obtain ⟨-, ⟨L, hL⟩, -⟩ := C65_lengths hK
  have ht : 0 < a.Z - b.Z := sub_pos.2 (C41_down h hm hp htol k a b ha hb)
  obtain ⟨v, hx, hf, hg, -⟩ := C76_least h hm hv hp hcoup hL htol hlin hperm k a b ha hb
  obtain ⟨v', hx', hf', hbeam'⟩ := off_beams h hm hv hp hcoup hL htol hlin hperm hstiff k a b ha hb
  have hvv : v' = v := by
    funext r
    have h1 := hx r
    rw [hx' r] at h1
    have h2 : (a.Z - b.Z) * (v' r - v r) = 0 := by linarith
    have := (mul_eq_zero.1 h2).resolve_left ht.ne'
    linarith
  subst hvv
  have hpow := (part_power h hm hv hp hcoup hstiff htol hlin hperm hL hC k a b ha hb v' hx hf A hA).1
  obtain ⟨Km2, bl, hs, l, has, hpos, hbl, -⟩ := solve_lengths h hm hp hC
  have hnn : 0 ≤ elasticEnergy mat mesh.rows coupling L (fun r => if r / 2 ∈ A then v' r else 0) := by
    rw [← has.energy_doc hm hpos ((hbl L).1 hL)]
    exact has.energy_nonneg hm hpos hcoup _
  have d1 : ∀ i : ℕ, (2 * i) / 2 = i := fun i => by omega
  have d2 : ∀ i : ℕ, (2 * i + 1) / 2 = i := fun i => by omega
  have hle := mul_nonneg ht.le hnn
  refine ⟨by linarith, ?_, ?_⟩
  · intro hgrow
    by_contra hno
    push Not at hno
    have hz := ((C72_rigid hK hm hv hp hcoup hL (fun r => if r / 2 ∈ A then v' r else 0)).2 (by
      intro i f hi hfi
      have hAi := hA i _ (linked_beam hi)
      simp only [d1, d2, ← hAi]
      by_cases hiA : i ∈ A
      · obtain ⟨e1, e2, e3⟩ := hbeam' i hi (fun hh => hno i hiA hh.1 hh.2)
        simp [hiA, e1, e2, e3]
      · simp [hiA])).2
    rw [hz] at hpow
    linarith
  · rintro ⟨m, hmA, ⟨n, ⟨i, hi, hgi⟩, hn⟩, ⟨n', ⟨j, hj, hgj⟩, hn'⟩⟩
    by_contra hng
    have hz : elasticEnergy mat mesh.rows coupling L (fun r => if r / 2 ∈ A then v' r else 0) = 0 := by
      refine le_antisymm ?_ hnn
      by_contra hpos'
      have := mul_pos ht (not_le.1 hpos')
      exact hng (by linarith)
    have hr := (C72_rigid hK hm hv hp hcoup hL (fun r => if r / 2 ∈ A then v' r else 0)).1 ⟨by
      intro i f hi hE ho
      simp only [hg i f hi hE ho, ite_self], hz⟩
    have hconst : ∀ {m n : ℕ}, Chained mat mesh.rows o.tol a.x m n → m ∈ A → v' (2 * m) = v' (2 * n) := fun {m n} hl hmA =>
      linked_const (P := fun i => i ∈ A) hA (g := fun i => v' (2 * i)) (fun i hi hiA => by
        obtain ⟨f, hfi⟩ := (run_ends h hm hv hi).2
        obtain ⟨-, e2, e3⟩ := hr i f hi hfi
        have e4 := e3 (hstiff.imp id (fun hh => hh f (nodeFiber_mem hfi)))
        have hAi := hA i _ (linked_beam hi)
        simp only [d1, d2, ← hAi, hiA, if_true] at e2 e4
        rw [e4, mul_zero, add_zero] at e2
        exact e2) (fun i j hij hne hg _ => (hf i j hij).2.1 hne hg) hl hmA
    have h1 : v' (2 * n) = 1 := (hf i n hi).2.2 hgi
    have h0 : v' (2 * n') = 0 := (hf n' j hj).1 hgj
    rw [← hconst hn hmA] at h1
    rw [← hconst hn' hmA, h1] at h0
    exact one_ne_zero h0

/-- C136: the plate presses on whole parts of the mat as much as they press on the floor. -/
theorem C136_parts {cs : ConstraintSys K} (hC : constraint mat mesh = .ok cs) (k : ℕ) (a b : Rec K) (ha : recs[k]? = some a)
    (hb : recs[k + 1]? = some b) (A : Finset ℕ) (hA : WholeParts mat mesh.rows o.tol a.x A) :
    partForce cs.C (fun j => b.x (2 * mesh.rows.length + j)) A 0 = partForce cs.C (fun j => b.x (2 * mesh.rows.length + j)) A 2 ∧
    0 ≤ partForce cs.C (fun j => b.x (2 * mesh.rows.length + j)) A 2 ∧
    (0 < partForce cs.C (fun j => b.x (2 * mesh.rows.length + j)) A 2 ↔
      ∃ i ∈ A, Hung mat mesh.rows o.tol a.Z a.x i ∧ Based mat mesh.rows o.tol a.x i) := by
  obtain ⟨Km, -, hK, -, -, -⟩ := solve_run h
  obtain ⟨-, ⟨L, hL⟩, -⟩ := C65_lengths hK
  have key : partForce cs.C (fun j => a.x (2 * mesh.rows.length + j)) A 0 = partForce cs.C (fun j => a.x (2 * mesh.rows.length + j)) A 2 ∧
      0 ≤ partForce cs.C (fun j => a.x (2 * mesh.rows.length + j)) A 2 ∧
      (0 < partForce cs.C (fun j => a.x (2 * mesh.rows.length + j)) A 2 →
        ∃ i ∈ A, Hung mat mesh.rows o.tol a.Z a.x i ∧ Based mat mesh.rows o.tol a.x i) := by
    clear hb
    induction k generalizing a with
    | zero =>
      obtain ⟨-, a0, ha0, hx0, -, hZ0, -⟩ := C40_itermax h
      rw [ha] at ha0; cases ha0
      simp [partForce, hx0]
    | succ k ih =>
      have hk := (List.getElem?_eq_some_iff.1 ha).1
      have hp' : recs[k]? = some (recs[k]'(by omega)) := List.getElem?_eq_getElem _
      generalize recs[k]'(by omega) = c at hp'
      obtain ⟨q0, q1, q2⟩ := C135_kept h hm hp htol hlin hperm k (k + 1) (by omega) c a hp' ha
      have hA' : WholeParts mat mesh.rows o.tol c.x A := fun i j hij => hA i j (q0 i j hij)
      obtain ⟨i1, i2, i3⟩ := ih c hp' hA'
      obtain ⟨v, hx, hf, hg, -⟩ := C76_least h hm hv hp hcoup hL htol hlin hperm k c a hp' ha
      have hpow := (part_power h hm hv hp hcoup hstiff htol hlin hperm hL hC k c a hp' ha v hx hf A hA').2
      obtain ⟨g1, g2⟩ := C136_grows h hm hv hp hcoup hstiff htol hlin hperm hC k c a hp' ha A hA'
      refine ⟨by linarith, i2.trans g1, fun hpos => ?_⟩
      have hex : ∃ i ∈ A, Hung mat mesh.rows o.tol c.Z c.x i ∧ Based mat mesh.rows o.tol c.x i := by
        by_contra hno
        have e1 := mt g2.1 hno
        have e2 := mt i3 hno
        exact absurd (lt_of_lt_of_le hpos (not_lt.1 e1)) e2
      obtain ⟨i, hiA, h1, h2⟩ := hex
      exact ⟨i, hiA, q1 i h1, q2 i h2⟩
  obtain ⟨i1, i2, i3⟩ := key
  obtain ⟨v, hx, hf, hg, -⟩ := C76_least h hm hv hp hcoup hL htol hlin hperm k a b ha hb
  have hpow := (part_power h hm hv hp hcoup hstiff htol hlin hperm hL hC k a b ha hb v hx hf A hA).2
  obtain ⟨g1, g2⟩ := C136_grows h hm hv hp hcoup hstiff htol hlin hperm hC k a b ha hb A hA
  refine ⟨by linarith, i2.trans g1, fun hpos => ?_, fun hex => lt_of_le_of_lt i2 (g2.2 hex)⟩
  by_contra hno
  exact absurd (lt_of_lt_of_le hpos (not_lt.1 (mt g2.1 hno))) (mt i3 hno)

end

end Fibermat
