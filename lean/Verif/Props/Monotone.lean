import Verif.Props.Plate
import Verif.Props.Regular

/-! # Motion of the nodes during a step (C76) -/

set_option linter.unusedSectionVars false
set_option linter.unusedSimpArgs false

namespace Fibermat
variable {K : Type} [Field K] [LinearOrder K] [IsStrictOrderedRing K]
open Spec

variable {mat : Mat K} {mesh : Mesh K} {lmin lmax : Option K} {coupling : K} {o : Opts K} {perm : Option (List ℕ)}
  {S : Sys K} {recs : List (Rec K)} {stop : Stop}

/-- The motion of a step, and the energy of its variations. -/
theorem step_variation (h : solve mat mesh lmin lmax coupling o perm = .ok (S, recs, stop)) (hm : GoodMat mat)
    (hp : PositiveLengths mesh.rows lmin lmax) (htol : 0 ≤ o.tol) (hlin : ExactLin o.lin) (hperm : PermOf S.n perm)
    {k : ℕ} {a b : Rec K} (ha : recs[k]? = some a) (hb : recs[k + 1]? = some b) :
    ∃ (Km : Coo (Cell K)) (bl : List (Beam K × K)) (v : ℕ → K) (t : K), Assembled mat mesh.rows coupling Km bl ∧
      (∀ p ∈ bl, 0 < p.2) ∧ (∀ L, BeamLengths mesh.rows lmin lmax L ↔ ∀ p ∈ bl, p.2 = L p.1.i) ∧
      0 < t ∧ b.Z = a.Z - t ∧ (∀ r, b.x r = a.x r - t * v r) ∧ Follows mat mesh.rows o.tol a.Z a.x v ∧
      (∀ r, Frozen bl r → v r = 0) ∧
      ∀ w : ℕ → K, (∀ r, Frozen bl r → w r = 0) → KeepsContacts mat mesh.rows o.tol a.Z a.x w →
        energy (2 * mesh.rows.length) (table mesh.rows coupling bl) (fun r => v r + w r) =
          energy (2 * mesh.rows.length) (table mesh.rows coupling bl) v +
            energy (2 * mesh.rows.length) (table mesh.rows coupling bl) w := by
  obtain ⟨v, t, ht, hZ, hx, hf⟩ := step_motion h hm hp htol hlin hperm ha hb
  obtain ⟨-, cs, -, hC, -, -⟩ := solve_run h
  obtain ⟨Km, bl, hs, l, has, hpos, hbl, hc, rfl, hN, hnK, hn, hnC, hcols, hZ0, hsd, rfl⟩ := solve_lengths h hm hp hC
  obtain ⟨dx, t', s, hst⟩ := hsd.next ha hb
  have hi := hsd.inv ha
  have htt : t' = t := by
    have := hst.Z
    rw [hZ] at this
    linarith
  subst htt
  have hvd : v = dx := by
    funext r
    have h1 := hst.x r
    rw [hx r] at h1
    have h2 : t' * (v r - dx r) = 0 := by linarith
    have := (mul_eq_zero.1 h2).resolve_left ht.ne'
    linarith
  subst hvd
  refine ⟨Km, bl, v, t', has, hpos, hbl, ht, hZ, hx, hf, fun r hr => hsd.dir_frozen hi hst.dir hr, ?_⟩
  intro w hw hk
  rw [energy_add _ (table_symm mesh.rows coupling bl), virtual_work (S := assemble Km cs) (rigid := Frozen bl) hn hcols
    (fun r hr hg => hsd.dir_balance (o := { o with perm := perm.getD (List.range (assemble Km cs).n) }) hlin
      (permOf_getD hperm) htol ha hst.dir (by omega) hg) hw, Finset.sum_eq_zero]
  · ring
  intro j hj
  have hj := Finset.mem_range.1 hj
  by_cases hact : (assemble Km cs).active o.tol a.x a.q (2 * mesh.rows.length + j) = true
  · obtain ⟨q, d, hd, rfl⟩ : ∃ q d, d < 3 ∧ j = 3 * q + d := ⟨j / 3, j % 3, by omega, by omega⟩
    have hq : l[q]? = some l[q] := List.getElem?_eq_getElem (by omega)
    generalize l[q] = x at hq
    obtain ⟨ne1, hgap⟩ := (hc.active hN hsd hn hi hq hd o.tol).1 hact
    obtain ⟨k0, k1, k2⟩ := hk _ _ (hc.isPair (List.mem_of_getElem? hq))
    rw [hc.row hq hd]
    interval_cases d
    · simp only [if_true]
      rw [k0 (by simpa [geoGap] using hgap), neg_zero, zero_mul]
    · simp only [one_ne_zero, if_true, if_false]
      rw [k1 (ne1 rfl) (by simpa [geoGap] using hgap), sub_self, zero_mul]
    · simp only [OfNat.ofNat_ne_zero, OfNat.ofNat_ne_one, if_false]
      rw [k2 (by simpa [geoGap] using hgap), zero_mul]
  · rw [direction_zero hst.dir (by simpa using hact), mul_zero]

/-! ## C76 -/

/-- The motion of a step has the least elastic energy among all motions that follow the plates and keep the closed gaps. -/
theorem C76_least (h : solve mat mesh lmin lmax coupling o perm = .ok (S, recs, stop)) (hm : GoodMat mat)
    (hv : ValidMesh mesh.frame) (hp : PositiveLengths mesh.rows lmin lmax) (hcoup : |coupling| ≤ 1) {L : ℕ → K}
    (hL : BeamLengths mesh.rows lmin lmax L) (htol : 0 ≤ o.tol) (hlin : ExactLin o.lin) (hperm : PermOf S.n perm)
    (k : ℕ) (a b : Rec K) (ha : recs[k]? = some a) (hb : recs[k + 1]? = some b) :
    ∃ v : ℕ → K, (∀ r, b.x r = a.x r - (a.Z - b.Z) * v r) ∧ Follows mat mesh.rows o.tol a.Z a.x v ∧ Guided mat mesh.rows v ∧
      ∀ w, Follows mat mesh.rows o.tol a.Z a.x w → Guided mat mesh.rows w →
        elasticEnergy mat mesh.rows coupling L v ≤ elasticEnergy mat mesh.rows coupling L w := by
  have hbeams : BeamsCyclic mesh.rows := by have := hv.beams; rwa [rows_meshFrame] at this
  obtain ⟨Km, bl, v, t, has, hpos, hbl, ht, hZ, hx, hf, hfr, hvar⟩ := step_variation h hm hp htol hlin hperm ha hb
  have htt : a.Z - b.Z = t := by rw [hZ]; ring
  refine ⟨v, fun r => by rw [htt]; exact hx r, hf, (has.guided hbeams).2 hfr, ?_⟩
  intro w hwf hwg
  rw [has.guided hbeams] at hwg
  have := hvar (fun r => w r - v r) (fun r hr => by simp only [hwg r hr, hfr r hr, sub_self]) (by
    intro i j hij
    obtain ⟨a0, a1, a2⟩ := hf i j hij
    obtain ⟨b0, b1, b2⟩ := hwf i j hij
    refine ⟨fun hg => ?_, fun hne hg => ?_, fun hg => ?_⟩
    · simp only [a0 hg, b0 hg, sub_self]
    · simp only [a1 hne hg, b1 hne hg]
    · simp only [a2 hg, b2 hg, sub_self])
  rw [← has.energy_doc hm hpos ((hbl L).1 hL), ← has.energy_doc hm hpos ((hbl L).1 hL)]
  have e : (fun r => v r + (w r - v r)) = w := by funext r; ring
  rw [e] at this
  have hnn := has.energy_nonneg hm hpos hcoup (fun r => w r - v r)
  linarith

/-- A number cut to the interval `[0, 1]`. -/
def cut (x : K) : K := max 0 (min x 1)

theorem cut_le (x y : K) : (cut x - cut y) ^ 2 ≤ (x - y) ^ 2 := by
  rw [sq_le_sq]
  unfold cut
  rcases le_total x y with hxy | hxy
  · have h1 : max 0 (min x 1) ≤ max 0 (min y 1) := max_le_max le_rfl (min_le_min hxy le_rfl)
    rw [abs_sub_comm, abs_sub_comm x, abs_of_nonneg (by linarith), abs_of_nonneg (by linarith)]
    rcases max_cases 0 (min x 1) with ⟨e1, e2⟩ | ⟨e1, e2⟩ <;> rcases max_cases 0 (min y 1) with ⟨e3, e4⟩ | ⟨e3, e4⟩ <;>
      rcases min_cases x 1 with ⟨e5, e6⟩ | ⟨e5, e6⟩ <;> rcases min_cases y 1 with ⟨e7, e8⟩ | ⟨e7, e8⟩ <;> linarith
  · have h1 : max 0 (min y 1) ≤ max 0 (min x 1) := max_le_max le_rfl (min_le_min hxy le_rfl)
    rw [abs_of_nonneg (by linarith), abs_of_nonneg (by linarith)]
    rcases max_cases 0 (min x 1) with ⟨e1, e2⟩ | ⟨e1, e2⟩ <;> rcases max_cases 0 (min y 1) with ⟨e3, e4⟩ | ⟨e3, e4⟩ <;>
      rcases min_cases x 1 with ⟨e5, e6⟩ | ⟨e5, e6⟩ <;> rcases min_cases y 1 with ⟨e7, e8⟩ | ⟨e7, e8⟩ <;> linarith

/-- Without coupling between displacements and rotations (`coupling = 0`, or infinite tensile moduli), no node moves up, and none
moves down more than the plate, from a state where the fibers are supported. -/
theorem C76_monotone (h : solve mat mesh lmin lmax coupling o perm = .ok (S, recs, stop)) (hm : GoodMat mat)
    (hv : ValidMesh mesh.frame) (hp : PositiveLengths mesh.rows lmin lmax)
    (hcoup : coupling = 0 ∨ ∀ f ∈ mat.fibers, f.E = ⊤) (htol : 0 ≤ o.tol) (hlin : ExactLin o.lin) (hperm : PermOf S.n perm)
    (k : ℕ) (a b : Rec K) (ha : recs[k]? = some a) (hb : recs[k + 1]? = some b)
    (hsup : ¬ Unsupported mat mesh.rows o.tol a.Z a.x) (i : ℕ) (hi : i < mesh.rows.length) :
    0 ≤ a.x (2 * i) - b.x (2 * i) ∧ a.x (2 * i) - b.x (2 * i) ≤ a.Z - b.Z := by
  have hbeams : BeamsCyclic mesh.rows := by have := hv.beams; rwa [rows_meshFrame] at this
  have hsorted : NodesSorted mesh.rows := by have := hv.sorted; rwa [rows_meshFrame] at this
  obtain ⟨Km, bl, v, t, has, hpos, hbl, ht, hZ, hx, hf, hfr, hvar⟩ := step_variation h hm hp htol hlin hperm ha hb
  set w : ℕ → K := fun r => if r % 2 = 0 then cut (v r) - v r else 0 with hw
  have we : ∀ i, w (2 * i) = cut (v (2 * i)) - v (2 * i) := by
    intro i
    have : (2 * i) % 2 = 0 := by omega
    simp only [hw, this, if_true]
  have wo : ∀ i, w (2 * i + 1) = 0 := by
    intro i
    have : ¬ (2 * i + 1) % 2 = 0 := by omega
    simp only [hw, this, if_false]
  have hkeep : KeepsContacts mat mesh.rows o.tol a.Z a.x w := by
    intro i j hij
    obtain ⟨a0, a1, a2⟩ := hf i j hij
    refine ⟨fun hg => ?_, fun hne hg => ?_, fun hg => ?_⟩
    · rw [we, a0 hg]; simp [cut]
    · rw [we, we, a1 hne hg]
    · rw [we, a2 hg]; simp [cut]
  have hwf : ∀ r, Frozen bl r → w r = 0 := by
    intro r hr
    have := frozen_odd r hr
    simp only [hw]
    rw [if_neg (by omega)]
  have hen := hvar w hwf hkeep
  -- on each beam, rotations and displacements are independent
  have hbeam : ∀ p ∈ bl, beamEnergy coupling (fun r => v r + w r) p ≤ beamEnergy coupling v p ∧
      beamEnergy coupling w p = stiff0 p.1.fiber p.2 * (w (2 * p.1.i) - w (2 * p.1.j)) ^ 2 := by
    intro p hpm
    have hk := stiff0_pos (has.solid hm p hpm) (hpos p hpm)
    have hcut := cut_le (v (2 * p.1.i)) (v (2 * p.1.j))
    constructor
    · simp only [beamEnergy, we, wo, add_zero]
      apply mul_le_mul_of_nonneg_left _ hk.le
      rcases hcoup with rfl | hE
      · have e1 : v (2 * p.1.i) + (cut (v (2 * p.1.i)) - v (2 * p.1.i)) - (v (2 * p.1.j) + (cut (v (2 * p.1.j)) - v (2 * p.1.j))) =
            cut (v (2 * p.1.i)) - cut (v (2 * p.1.j)) := by ring
        rw [e1]
        simp only [zero_mul, zero_div, add_zero]
        linarith
      · have hE : p.1.fiber.E = ⊤ := by
          obtain ⟨r, q, -, -, -, -, -, hfb⟩ := (has.beam p hpm).rows
          exact hE _ (List.mem_of_getElem? hfb)
        have r1 : v (2 * p.1.i + 1) = 0 := hfr _ ⟨p, hpm, hE, Or.inl rfl⟩
        have r2 : v (2 * p.1.j + 1) = 0 := hfr _ ⟨p, hpm, hE, Or.inr rfl⟩
        have e1 : v (2 * p.1.i) + (cut (v (2 * p.1.i)) - v (2 * p.1.i)) - (v (2 * p.1.j) + (cut (v (2 * p.1.j)) - v (2 * p.1.j))) =
            cut (v (2 * p.1.i)) - cut (v (2 * p.1.j)) := by ring
        rw [e1, r1, r2]
        simp only [add_zero, mul_zero, zero_div]
        linarith
    · simp only [beamEnergy, wo]
      ring
  have hle : energy (2 * mesh.rows.length) (table mesh.rows coupling bl) (fun r => v r + w r) ≤
      energy (2 * mesh.rows.length) (table mesh.rows coupling bl) v := by
    rw [has.energy_eq, has.energy_eq]
    exact List.sum_le_sum (fun p hpm => (hbeam p hpm).1)
  have hnn : ∀ x ∈ bl.map (beamEnergy coupling w), 0 ≤ x := by
    intro x hx
    obtain ⟨p, hpm, rfl⟩ := List.mem_map.1 hx
    rw [(hbeam p hpm).2]
    have hk := stiff0_pos (has.solid hm p hpm) (hpos p hpm)
    positivity
  have hw0 : (bl.map (beamEnergy coupling w)).sum = 0 := by
    have e := has.energy_eq w
    have := List.sum_nonneg hnn
    linarith
  have hflat : ∀ p ∈ bl, w (2 * p.1.i) = w (2 * p.1.j) := by
    intro p hpm
    have h1 := List.single_le_sum hnn _ (List.mem_map_of_mem hpm)
    rw [hw0] at h1
    have h2 := le_antisymm h1 (hnn _ (List.mem_map_of_mem hpm))
    rw [(hbeam p hpm).2] at h2
    have hk := stiff0_pos (has.solid hm p hpm) (hpos p hpm)
    have := pow_eq_zero_iff (two_ne_zero) |>.1 ((mul_eq_zero.1 h2).resolve_left hk.ne')
    linarith
  have hw1 : w (2 * i) = 0 := by
    by_contra hne
    apply hsup
    refine ⟨w, ⟨i, hi, hne⟩, same_fiber hbeams hsorted (fun i => w (2 * i)) ?_, hkeep⟩
    intro j hj
    obtain ⟨p, hpm, rfl⟩ := has.all j hj
    rw [(has.beam p hpm).data.2.1]
    exact hflat p hpm
  rw [we] at hw1
  have hv01 : 0 ≤ v (2 * i) ∧ v (2 * i) ≤ 1 := by
    have : v (2 * i) = cut (v (2 * i)) := by linarith
    rw [this]
    exact ⟨le_max_left _ _, max_le zero_le_one (min_le_right _ _)⟩
  rw [hx, hZ]
  constructor
  · have := mul_nonneg ht.le hv01.1
    linarith
  · have := mul_le_mul_of_nonneg_left hv01.2 ht.le
    linarith

/-- The documented condition `u ≤ 0` on the vertical displacements (`solver.py:21-25`), without coupling. -/
theorem C76_downward (h : solve mat mesh lmin lmax coupling o perm = .ok (S, recs, stop)) (hm : GoodMat mat)
    (hv : ValidMesh mesh.frame) (hp : PositiveLengths mesh.rows lmin lmax)
    (hcoup : coupling = 0 ∨ ∀ f ∈ mat.fibers, f.E = ⊤) (htol : 0 ≤ o.tol) (hlin : ExactLin o.lin) (hperm : PermOf S.n perm)
    (k : ℕ) (a : Rec K) (ha : recs[k]? = some a)
    (hsup : ∀ j b, j < k → recs[j]? = some b → ¬ Unsupported mat mesh.rows o.tol b.Z b.x) (i : ℕ) (hi : i < mesh.rows.length) :
    a.Z - S.Z0 ≤ a.x (2 * i) ∧ a.x (2 * i) ≤ 0 := by
  induction k generalizing a with
  | zero =>
    obtain ⟨-, a0, ha0, hx0, -, hZ0, -⟩ := C40_itermax h
    rw [ha] at ha0; cases ha0
    rw [hx0, hZ0, sub_self]
    exact ⟨le_rfl, le_rfl⟩
  | succ k ih =>
    have hlt := (List.getElem?_eq_some_iff.1 ha).1
    have hc : recs[k]? = some recs[k] := List.getElem?_eq_getElem (by omega)
    obtain ⟨i1, i2⟩ := ih _ hc (fun j b hj hb => hsup j b (by omega) hb)
    obtain ⟨m1, m2⟩ := C76_monotone h hm hv hp hcoup htol hlin hperm k _ a hc ha (hsup k _ (by omega) hc) i hi
    constructor <;> linarith

end Fibermat
