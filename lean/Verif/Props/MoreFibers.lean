import Verif.Props.NestedRuns
import Verif.Props.Stiffer
import Verif.Props.Monotone

/-! # Adding fibers to a mat (C145) -/

set_option linter.unusedSectionVars false

namespace Fibermat
open Spec
variable {K : Type} [Field K] [LinearOrder K] [IsStrictOrderedRing K]
variable {mat mat' : Mat K} {mesh mesh' : Mesh K} {o o' : Opts K} {perm perm' : Option (List Nat)} {S S' : Sys K} {recs recs' : List (Rec K)}
  {stop stop' : Stop}

/-- The nodes of the larger mesh between two successive nodes of a beam of the smaller one. -/
theorem more_between {rows rows' : List (MeshRow K)} {σ : ℕ → ℕ} {τ : Int → Int}
    {mat mat' : Mat K} (hn : MoreFibers mat mat' rows rows' σ τ) (hs' : NodesSorted rows') {i : ℕ}
    {r p : MeshRow K} (hr : rows[i]? = some r) (hp : rows[i + 1]? = some p) (hf : r.fiber = p.fiber) {j : ℕ} (h1 : σ i ≤ j)
    (h2 : j ≤ σ (i + 1)) : ∃ q, rows'[j]? = some q ∧ q.fiber = τ r.fiber := by
  obtain ⟨r', hr', fr, -⟩ := hn.node i r hr
  obtain ⟨p', hp', fp, -⟩ := hn.node (i + 1) p hp
  have hj : j < rows'.length := lt_of_le_of_lt h2 (List.getElem?_eq_some_iff.1 hp').1
  refine ⟨rows'[j], List.getElem?_eq_getElem hj, ?_⟩
  have hmono : ∀ {x y : ℕ} {a b : MeshRow K}, rows'[x]? = some a → rows'[y]? = some b → x ≤ y → a.fiber ≤ b.fiber := by
    intro x y a b hx hy hxy
    rcases Nat.eq_or_lt_of_le hxy with rfl | hlt
    · rw [hx] at hy; cases hy; exact le_rfl
    · obtain ⟨hx1, rfl⟩ := List.getElem?_eq_some_iff.1 hx
      obtain ⟨hy1, rfl⟩ := List.getElem?_eq_some_iff.1 hy
      rcases List.pairwise_iff_getElem.1 hs' x y hx1 hy1 hlt with h | h
      · exact h.le
      · exact h.1.le
  have a1 := hmono hr' (List.getElem?_eq_getElem hj) h1
  have a2 := hmono (List.getElem?_eq_getElem hj) hp' h2
  rw [fr] at a1
  rw [fp, ← hf] at a2
  exact le_antisymm a2 a1

/-- C145: the energy of any displacement of the larger mat is at least the energy of its values at the nodes of the smaller one, and more
as soon as a beam that received a node is deformed. -/
theorem C145_energy {Km Km' : Coo (Cell K)} (h : stiffness mat mesh none none 1 = .ok Km) (h' : stiffness mat' mesh' none none 1 = .ok Km')
    (hm : GoodMat mat) (hm' : GoodMat mat') (ht' : FiniteTensile mat') (hv : ValidMesh mesh.frame) (hv' : ValidMesh mesh'.frame)
    (hp : PositiveLengths mesh.rows none none) (hp' : PositiveLengths mesh'.rows none none) {σ : ℕ → ℕ} {τ : Int → Int}
    (hn : MoreFibers mat mat' mesh.rows mesh'.rows σ τ) {L L' : ℕ → K} (hL : BeamLengths mesh.rows none none L)
    (hL' : BeamLengths mesh'.rows none none L') (u : ℕ → K) :
    elasticEnergy mat mesh.rows 1 L (restrictTo σ u) ≤ elasticEnergy mat' mesh'.rows 1 L' u ∧
      ((∃ i, SameFiber mesh.rows i (i + 1) ∧ σ i + 1 < σ (i + 1) ∧
          ¬ SolidMotion (abscissa mesh.rows (i + 1) - abscissa mesh.rows i) (u (2 * σ i)) (u (2 * σ i + 1)) (u (2 * σ (i + 1)))
            (u (2 * σ (i + 1) + 1))) →
        elasticEnergy mat mesh.rows 1 L (restrictTo σ u) < elasticEnergy mat' mesh'.rows 1 L' u) := by
  classical
  obtain ⟨size, -, hg⟩ := hm.size
  obtain ⟨size', -, hg'⟩ := hm'.size
  have hsort' : NodesSorted mesh'.rows := by have := hv'.sorted; rwa [rows_meshFrame] at this
  -- energies of the beams of the larger mesh
  let g : ℕ → K := fun j => if StartsBeam mesh'.rows j then
    match nodeFiber mat' mesh'.rows j with
    | none => 0
    | some f => elementEnergy f (L' j) 1 (u (2 * j)) (u (2 * j + 1)) (u (2 * succNode mesh'.rows j)) (u (2 * succNode mesh'.rows j + 1))
    else 0
  have hfin : ∀ f ∈ mat'.fibers, ∃ E : K, f.E = (E : WithTop K) := by
    intro f hf
    cases hE : f.E with
    | top => exact absurd hE (ht' f hf)
    | coe e => exact ⟨e, rfl⟩
  have hbeam' : ∀ j, StartsBeam mesh'.rows j → succNode mesh'.rows j = j + 1 ∧ SameFiber mesh'.rows j (j + 1) := by
    intro j hj
    have := (C34_beams hv' j _).1 ⟨hj, rfl⟩
    exact ⟨this.1, this.1 ▸ this.2⟩
  have g0 : ∀ j, 0 ≤ g j := by
    intro j
    simp only [g]
    split_ifs with hj
    · cases hfj : nodeFiber mat' mesh'.rows j with
      | none => exact le_rfl
      | some f =>
        obtain ⟨E, hE⟩ := hfin f (nodeFiber_mem hfj)
        exact density_nonneg (hg' f (nodeFiber_mem hfj)) hE (trueLengths h' hv' hp' hL' (hbeam' j hj).2).2 _ _ _ _
    · exact le_rfl
  -- energies of the beams of the smaller mesh
  let e : ℕ → K := fun i => if StartsBeam mesh.rows i then
    match nodeFiber mat mesh.rows i with
    | none => 0
    | some f => elementEnergy f (L i) 1 (restrictTo σ u (2 * i)) (restrictTo σ u (2 * i + 1)) (restrictTo σ u (2 * succNode mesh.rows i))
        (restrictTo σ u (2 * succNode mesh.rows i + 1))
    else 0
  have key : ∀ i, e i ≤ ∑ j ∈ Finset.Ico (σ i) (σ (i + 1)), g j ∧ (SameFiber mesh.rows i (i + 1) → σ i + 1 < σ (i + 1) →
      ¬ SolidMotion (abscissa mesh.rows (i + 1) - abscissa mesh.rows i) (u (2 * σ i)) (u (2 * σ i + 1)) (u (2 * σ (i + 1)))
        (u (2 * σ (i + 1) + 1)) → e i < ∑ j ∈ Finset.Ico (σ i) (σ (i + 1)), g j) := by
    intro i
    by_cases hsame : SameFiber mesh.rows i (i + 1)
    swap
    · have hno : ¬ StartsBeam mesh.rows i := by
        intro hst
        have := (C34_beams hv i _).1 ⟨hst, rfl⟩
        exact hsame (this.1 ▸ this.2)
      refine ⟨?_, fun h => absurd h hsame⟩
      simp only [e, if_neg hno]
      exact Finset.sum_nonneg (fun j _ => g0 j)
    obtain ⟨hst, hsucc⟩ := (C34_beams hv i (i + 1)).2 ⟨rfl, hsame⟩
    obtain ⟨r, p, hr, hpq, hrp⟩ := hsame
    have hlt : σ i < σ (i + 1) := hn.mono i (i + 1) (by omega) (List.getElem?_eq_some_iff.1 hpq).1
    obtain ⟨r', hr', fr, sr, mr⟩ := hn.node i r hr
    obtain ⟨p', hp'', fp, sp, -⟩ := hn.node (i + 1) p hpq
    obtain ⟨f, hf⟩ : ∃ f, nodeFiber mat mesh.rows i = some f := by
      obtain ⟨f, hf, -⟩ := C66_transverse h hm hp hL hst
      exact ⟨f, hf⟩
    have hf' : mat'.fibers[(τ r.fiber).toNat]? = some f := by
      rw [← fr, mr]
      simpa [nodeFiber, hr] using hf
    obtain ⟨E, hE⟩ := hfin f (List.mem_of_getElem? hf')
    have hgf := hg f (nodeFiber_mem hf)
    have hLi := (trueLengths h hv hp hL ⟨r, p, hr, hpq, hrp⟩).1
    have sa : abscissa mesh'.rows (σ i) = abscissa mesh.rows i := by simp [abscissa, hr, hr', sr]
    have sb : abscissa mesh'.rows (σ (i + 1)) = abscissa mesh.rows (i + 1) := by simp [abscissa, hpq, hp'', sp]
    have hsj : ∀ j, σ i ≤ j → j < σ (i + 1) → SameFiber mesh'.rows j (j + 1) ∧ nodeFiber mat' mesh'.rows j = some f := by
      intro j h1 h2
      obtain ⟨q, hq, fq⟩ := more_between hn hsort' hr hpq hrp h1 h2.le
      obtain ⟨q', hq', fq'⟩ := more_between hn hsort' hr hpq hrp (by omega : σ i ≤ j + 1) h2
      refine ⟨⟨q, q', hq, hq', fq.trans fq'.symm⟩, ?_⟩
      simp [nodeFiber, hq, fq, hf']
    have hchain := chain_energy hgf hE (abscissa mesh'.rows) (fun j => u (2 * j)) (fun j => u (2 * j + 1)) hlt (fun j h1 h2 => by
      have := (trueLengths h' hv' hp' hL' (hsj j h1 h2).1)
      rw [this.1] at this
      linarith [this.2])
    have hsum : ∑ j ∈ Finset.Ico (σ i) (σ (i + 1)), g j = ∑ j ∈ Finset.Ico (σ i) (σ (i + 1)),
        elementEnergy f (abscissa mesh'.rows (j + 1) - abscissa mesh'.rows j) 1 (u (2 * j)) (u (2 * j + 1)) (u (2 * (j + 1)))
          (u (2 * (j + 1) + 1)) := by
      refine Finset.sum_congr rfl (fun j hj => ?_)
      obtain ⟨h1, h2⟩ := Finset.mem_Ico.1 hj
      obtain ⟨k1, k2⟩ := hsj j h1 h2
      obtain ⟨k3, k4⟩ := (C34_beams hv' j (j + 1)).2 ⟨rfl, k1⟩
      simp only [g, if_pos k3, k2, k4, (trueLengths h' hv' hp' hL' k1).1]
    have he : e i = elementEnergy f (abscissa mesh'.rows (σ (i + 1)) - abscissa mesh'.rows (σ i)) 1 (u (2 * σ i)) (u (2 * σ i + 1))
        (u (2 * σ (i + 1))) (u (2 * σ (i + 1) + 1)) := by
      simp only [e, if_pos hst, hf, hsucc, restrict_even, restrict_odd, hLi, sa, sb]
    rw [hsum, he]
    refine ⟨hchain.2.1, fun _ hgap hns => hchain.2.2 hgap ?_⟩
    rw [sa, sb]
    exact hns
  have hco : elasticEnergy mat mesh.rows 1 L (restrictTo σ u) = ∑ i ∈ Finset.range mesh.rows.length, e i := rfl
  have hfi : elasticEnergy mat' mesh'.rows 1 L' u = ∑ j ∈ Finset.range mesh'.rows.length, g j := rfl
  rw [hco, hfi]
  rcases Nat.eq_zero_or_pos mesh.rows.length with h0 | h0
  · rw [h0, Finset.sum_range_zero]
    refine ⟨Finset.sum_nonneg (fun j _ => g0 j), ?_⟩
    rintro ⟨i, ⟨r, -, hr, -⟩, -⟩
    have := (List.getElem?_eq_some_iff.1 hr).1
    omega
  obtain ⟨n, hnl⟩ : ∃ n, mesh.rows.length = n + 1 := ⟨mesh.rows.length - 1, by omega⟩
  have hlast : e n = 0 := by
    have hno : ¬ StartsBeam mesh.rows n := by
      intro hst
      obtain ⟨h1, -, q, -, hq, -⟩ := (C34_beams hv n _).1 ⟨hst, rfl⟩
      rw [h1] at hq
      have := (List.getElem?_eq_some_iff.1 hq).1
      omega
    simp only [e, if_neg hno]
  have hrange : ∑ i ∈ Finset.range mesh.rows.length, e i = ∑ i ∈ Finset.range n, e i := by
    rw [hnl, Finset.sum_range_succ, hlast, add_zero]
  have hup : ∑ i ∈ Finset.range n, ∑ j ∈ Finset.Ico (σ i) (σ (i + 1)), g j ≤ ∑ j ∈ Finset.range mesh'.rows.length, g j := by
    rw [sum_steps g σ n (fun i j h1 h2 => hn.mono i j h1 (by omega))]
    refine Finset.sum_le_sum_of_subset_of_nonneg ?_ (fun j _ _ => g0 j)
    intro j hj
    obtain ⟨q, hq, -⟩ := hn.node n _ (List.getElem?_eq_getElem (by omega))
    have := (List.getElem?_eq_some_iff.1 hq).1
    exact Finset.mem_range.2 (lt_trans (Finset.mem_Ico.1 hj).2 this)
  rw [hrange]
  refine ⟨(Finset.sum_le_sum (fun i _ => (key i).1)).trans hup, ?_⟩
  rintro ⟨i, h1, h2, h3⟩
  refine lt_of_lt_of_le (Finset.sum_lt_sum (fun i _ => (key i).1) ⟨i, ?_, (key i).2 h1 h2 h3⟩) hup
  obtain ⟨r, p, hr, hpq, -⟩ := h1
  have := (List.getElem?_eq_some_iff.1 hpq).1
  exact Finset.mem_range.2 (by omega)

theorem more_thick {rows rows' : List (MeshRow K)} {σ : ℕ → ℕ} {τ : Int → Int}
    (hn : MoreFibers mat mat' rows rows' σ τ) {i : ℕ} (hi : i < rows.length) :
    nodeThick mat' rows' (σ i) = nodeThick mat rows i := by
  obtain ⟨r', hr', -, -, hfib⟩ := hn.node i _ (List.getElem?_eq_getElem hi)
  simp [nodeThick, hr', hfib, List.getElem?_eq_getElem hi]

/-- C145: steps of runs on a mat and on a larger one. If the contacts kept in the step of the smaller mat are among those kept in that of
the larger one, the force of the plate grows at least as fast in the larger one. -/
theorem C145_step (h : solve mat mesh none none 1 o perm = .ok (S, recs, stop)) (h' : solve mat' mesh' none none 1 o' perm' = .ok (S', recs', stop'))
    (hm : GoodMat mat) (hm' : GoodMat mat') (ht : FiniteTensile mat) (ht' : FiniteTensile mat') (hv : ValidMesh mesh.frame) (hv' : ValidMesh mesh'.frame)
    (hp : PositiveLengths mesh.rows none none) (hp' : PositiveLengths mesh'.rows none none) {σ : ℕ → ℕ} {τ : Int → Int}
    (hn : MoreFibers mat mat' mesh.rows mesh'.rows σ τ) (htol : 0 ≤ o.tol) (hlin : ExactLin o.lin) (hperm : PermOf S.n perm)
    (htol' : 0 ≤ o'.tol) (hlin' : ExactLin o'.lin) (hperm' : PermOf S'.n perm')
    {cs cs' : ConstraintSys K} (hC : constraint mat mesh = .ok cs) (hC' : constraint mat' mesh' = .ok cs')
    (k k' : ℕ) (a b a' b' : Rec K) (ha : recs[k]? = some a) (hb : recs[k + 1]? = some b)
    (ha' : recs'[k']? = some a') (hb' : recs'[k' + 1]? = some b')
    (hkeep : ∀ w, Follows mat' mesh'.rows o'.tol a'.Z a'.x w → Follows mat mesh.rows o.tol a.Z a.x (restrictTo σ w)) :
    (totalForce cs.C (fun j => b.x (2 * mesh.rows.length + j)) 2 -
      totalForce cs.C (fun j => a.x (2 * mesh.rows.length + j)) 2) / (a.Z - b.Z) ≤
    (totalForce cs'.C (fun j => b'.x (2 * mesh'.rows.length + j)) 2 -
      totalForce cs'.C (fun j => a'.x (2 * mesh'.rows.length + j)) 2) / (a'.Z - b'.Z) := by
  obtain ⟨Km, -, hK, -⟩ := solve_run h
  obtain ⟨Km', -, hK', -⟩ := solve_run h'
  obtain ⟨-, ⟨L, hL⟩, -, -⟩ := C65_lengths hK
  obtain ⟨-, ⟨L', hL'⟩, -, -⟩ := C65_lengths hK'
  have h1 : |(1 : K)| ≤ 1 := by simp
  obtain ⟨v, hx, hf, hg, hmin⟩ := C76_least h hm hv hp h1 hL htol hlin hperm k a b ha hb
  obtain ⟨v', hx', hf', hg', -⟩ := C76_least h' hm' hv' hp' h1 hL' htol' hlin' hperm' k' a' b' ha' hb'
  rw [C114_slope h hm hp hL htol hlin hperm hC k a b ha hb v hx, C114_slope h' hm' hp' hL' htol' hlin' hperm' hC' k' a' b' ha' hb' v' hx']
  refine (hmin _ (hkeep v' hf') ?_).trans (C145_energy hK hK' hm hm' ht' hv hv' hp hp' hn hL hL' v').1
  intro i f hi hE
  exact absurd hE (ht f (nodeFiber_mem hi))

/-- C145: at the start of the runs. If the larger mat also has the connections of the smaller one, and the same initial thickness, its
initial stiffness is at least that of the smaller one. -/
theorem C145_start (h : solve mat mesh none none 1 o perm = .ok (S, recs, stop)) (h' : solve mat' mesh' none none 1 o' perm' = .ok (S', recs', stop'))
    (hm : GoodMat mat) (hm' : GoodMat mat') (ht : FiniteTensile mat) (ht' : FiniteTensile mat') (hv : ValidMesh mesh.frame) (hv' : ValidMesh mesh'.frame)
    (hp : PositiveLengths mesh.rows none none) (hp' : PositiveLengths mesh'.rows none none) {σ : ℕ → ℕ} {τ : Int → Int}
    (hn : MoreFibers mat mat' mesh.rows mesh'.rows σ τ) (hsame : SameContacts mesh.rows mesh'.rows σ) (htol : 0 ≤ o.tol) (hlin : ExactLin o.lin)
    (hperm : PermOf S.n perm) (htol' : o'.tol = o.tol) (hlin' : ExactLin o'.lin) (hperm' : PermOf S'.n perm')
    {cs cs' : ConstraintSys K} (hC : constraint mat mesh = .ok cs) (hC' : constraint mat' mesh' = .ok cs') (hZ : cs'.Z = cs.Z)
    (b b' : Rec K) (hb : recs[1]? = some b) (hb' : recs'[1]? = some b') :
    totalForce cs.C (fun j => b.x (2 * mesh.rows.length + j)) 2 / (cs.Z - b.Z) ≤
      totalForce cs'.C (fun j => b'.x (2 * mesh'.rows.length + j)) 2 / (cs'.Z - b'.Z) := by
  obtain ⟨-, a, ha, hx, -, hZa, -⟩ := C40_itermax h
  obtain ⟨-, a', ha', hx', -, hZa', -⟩ := C40_itermax h'
  obtain ⟨_, cs1, _, hC1, hS1, _⟩ := solve_run h
  obtain ⟨_, cs2, _, hC2, hS2, _⟩ := solve_run h'
  rw [hC] at hC1; cases hC1
  rw [hC'] at hC2; cases hC2
  have e1 : a.Z = cs.Z := by rw [hZa, hS1]; rfl
  have e2 : a'.Z = cs'.Z := by rw [hZa', hS2]; rfl
  have x1 : ∀ r, a.x r = 0 := fun r => by rw [hx]
  have x2 : ∀ r, a'.x r = 0 := fun r => by rw [hx']
  have hthick : ∀ i, i < mesh.rows.length → nodeThick mat' mesh'.rows (σ i) = nodeThick mat mesh.rows i := fun i hi => more_thick hn hi
  have hcr : ConstraintsReciprocal mesh.rows := by have := hv.constraints; rwa [rows_meshFrame] at this
  have hkeep : ∀ w, Follows mat' mesh'.rows o'.tol a'.Z a'.x w → Follows mat mesh.rows o.tol a.Z a.x (restrictTo σ w) := by
    intro w hw i j hij
    obtain ⟨hle, r, hr, hc⟩ := hij
    have hi := (List.getElem?_eq_some_iff.1 hr).1
    obtain ⟨j', p, hj', hp', -⟩ := hcr i r hr
    have hjj : j' = j := by
      have := hj'.symm.trans hc
      exact_mod_cast this
    subst hjj
    have hj := (List.getElem?_eq_some_iff.1 hp').1
    obtain ⟨g1, g2, g3⟩ := hw (σ i) (σ j') (hsame.pair i j' ⟨hle, r, hr, hc⟩)
    have hσ : i ≠ j' → σ i ≠ σ j' := by
      intro hne
      rcases Nat.lt_or_gt_of_ne hne with hlt | hlt
      · exact (hn.mono i j' hlt hj).ne
      · exact (hn.mono j' i hlt hi).ne'
    simp only [restrict_even, floorGap, pairGap, roofGap, x1, x2, e1, e2, hZ, hthick i hi, hthick j' hj, hsame.height i hi, hsame.height j' hj,
      htol', add_zero] at g1 g2 g3 ⊢
    exact ⟨g1, fun hne => g2 (hσ hne), g3⟩
  have := C145_step h h' hm hm' ht ht' hv hv' hp hp' hn htol hlin hperm (by rw [htol']; exact htol) hlin' hperm' hC hC' 0 0 a b a' b' ha hb ha' hb' hkeep
  have z1 : totalForce cs.C (fun j => a.x (2 * mesh.rows.length + j)) 2 = 0 := by simp [totalForce, x1]
  have z2 : totalForce cs'.C (fun j => a'.x (2 * mesh'.rows.length + j)) 2 = 0 := by simp [totalForce, x2]
  rwa [z1, z2, sub_zero, sub_zero, e1, e2] at this

/-- C145: at a given height of the plate, or lower, the larger mat has stored at least the elastic energy of the smaller one (up to `tol`
times the sum of the contact forces), when no contact of the smaller one pulls. -/
theorem C145_work (h : solve mat mesh none none 1 o perm = .ok (S, recs, stop)) (h' : solve mat' mesh' none none 1 o' perm' = .ok (S', recs', stop'))
    (hm : GoodMat mat) (hm' : GoodMat mat') (ht : FiniteTensile mat) (ht' : FiniteTensile mat') (hv : ValidMesh mesh.frame) (hv' : ValidMesh mesh'.frame)
    (hp : PositiveLengths mesh.rows none none) (hp' : PositiveLengths mesh'.rows none none) {σ : ℕ → ℕ} {τ : Int → Int}
    (hn : MoreFibers mat mat' mesh.rows mesh'.rows σ τ) (hsame : SameContacts mesh.rows mesh'.rows σ)
    {L L' : ℕ → K} (hL : BeamLengths mesh.rows none none L) (hL' : BeamLengths mesh'.rows none none L')
    (htol : 0 ≤ o.tol) (hlin : ExactLin o.lin) (hperm : PermOf S.n perm)
    (htol' : 0 ≤ o'.tol) (hlin' : ExactLin o'.lin) (hperm' : PermOf S'.n perm')
    {cs cs' : ConstraintSys K} (hC : constraint mat mesh = .ok cs) (hC' : constraint mat' mesh' = .ok cs')
    (hadm' : Admissible cs' (fun _ => 0))
    (k k' : ℕ) (a a' : Rec K) (ha : recs[k]? = some a) (ha' : recs'[k']? = some a') (hZ : a'.Z ≤ a.Z)
    (hpush : ∀ j, j < cs.C.nrows → 0 ≤ a.x (2 * mesh.rows.length + j)) :
    elasticEnergy mat mesh.rows 1 L a.x ≤ elasticEnergy mat' mesh'.rows 1 L' a'.x +
      2 * o.tol * ∑ j ∈ Finset.range cs.C.nrows, a.x (2 * mesh.rows.length + j) := by
  obtain ⟨Km, -, hK, -⟩ := solve_run h
  obtain ⟨Km', -, hK', -⟩ := solve_run h'
  have hcr' : ConstraintsReciprocal mesh'.rows := by have := hv'.constraints; rwa [rows_meshFrame] at this
  have hcr : ConstraintsReciprocal mesh.rows := by have := hv.constraints; rwa [rows_meshFrame] at this
  have hnp := C46_nonPenetrating h' hm' hp' htol' hlin' hperm' hC' hadm' hcr' k' a' ha'
  have hle := (C145_energy hK hK' hm hm' ht' hv hv' hp hp' hn hL hL' a'.x).1
  have hin : ∀ i, i < mesh.rows.length → σ i < mesh'.rows.length := by
    intro i hi
    obtain ⟨r', hr', -⟩ := hn.node i _ (List.getElem?_eq_getElem hi)
    exact (List.getElem?_eq_some_iff.1 hr').1
  have := C71_minimum h hm hv hp htol hlin hperm (by simp) hC hL k a ha hpush (restrictTo σ a'.x)
    (fun i f hi hE => absurd hE (ht f (nodeFiber_mem hi))) (by
    refine ⟨fun i hi => ?_, fun i hi => ?_, fun i j r hr hj hij => ?_⟩
    · have := hnp.floor (σ i) (hin i hi)
      rw [more_thick hn hi, hsame.height i hi] at this
      rw [restrict_even]; exact this
    · have := hnp.roof (σ i) (hin i hi)
      rw [more_thick hn hi, hsame.height i hi] at this
      rw [restrict_even]; linarith
    · have hi := (List.getElem?_eq_some_iff.1 hr).1
      obtain ⟨j', p, hj', hp', -⟩ := hcr i r hr
      obtain rfl : j' = j := by
        have := hj'.symm.trans hj
        exact_mod_cast this
      have hjl := (List.getElem?_eq_some_iff.1 hp').1
      obtain ⟨-, q, hq, hqc⟩ := hsame.pair i j' ⟨hij.le, r, hr, hj⟩
      have := hnp.pair (σ i) (σ j') q hq hqc (hn.mono i j' hij hjl)
      rw [more_thick hn hi, more_thick hn hjl, hsame.height i hi, hsame.height j' hjl] at this
      rw [restrict_even, restrict_even]; exact this)
  linarith

end Fibermat
