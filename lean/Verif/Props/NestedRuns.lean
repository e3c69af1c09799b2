import Verif.Props.Nested
import Verif.Props.Stiffer
import Verif.Props.Monotone

/-! # Runs on nested meshes (C144) -/

set_option linter.unusedSectionVars false

namespace Fibermat
open Spec
variable {K : Type} [Field K] [LinearOrder K] [IsStrictOrderedRing K]
variable {mat : Mat K} {mesh mesh' : Mesh K} {o o' : Opts K} {perm perm' : Option (List Nat)} {S S' : Sys K} {recs recs' : List (Rec K)}
  {stop stop' : Stop}

theorem nested_elastic {Km Km' : Coo (Cell K)} (h : stiffness mat mesh none none 1 = .ok Km) (h' : stiffness mat mesh' none none 1 = .ok Km')
    (hm : GoodMat mat) (ht : FiniteTensile mat) (hv : ValidMesh mesh.frame) (hv' : ValidMesh mesh'.frame)
    (hp : PositiveLengths mesh.rows none none) (hp' : PositiveLengths mesh'.rows none none) {σ : ℕ → ℕ}
    (hn : Nested mesh.rows mesh'.rows σ) {L L' : ℕ → K} (hL : BeamLengths mesh.rows none none L) (hL' : BeamLengths mesh'.rows none none L')
    (u : ℕ → K) : elasticEnergy mat mesh.rows 1 L (restrictTo σ u) ≤ elasticEnergy mat mesh'.rows 1 L' u := by
  have e := C65_entries h hm ht hp hL
  have e' := C65_entries h' hm ht hp' hL'
  have := (C143_nested h h' hm ht hv hv' hp hp' hn e e' u).1
  rwa [C65_energy h hm hp hL _ _ (fun r s _ _ => e r s), C65_energy h' hm hp' hL' _ _ (fun r s _ _ => e' r s)] at this

theorem nested_thick {rows rows' : List (MeshRow K)} {σ : ℕ → ℕ} (hn : Nested rows rows' σ) {i : ℕ} (hi : i < rows.length) :
    nodeThick mat rows' (σ i) = nodeThick mat rows i := by
  obtain ⟨r', hr', fr, -⟩ := hn.node i _ (List.getElem?_eq_getElem hi)
  simp [nodeThick, hr', fr, List.getElem?_eq_getElem hi]

/-- C144: steps of two runs on nested meshes of the same mat. If the contacts kept in the step on the coarser mesh are among those kept on
the finer one, the force of the plate grows at least as fast on the finer mesh. -/
theorem C144_step (h : solve mat mesh none none 1 o perm = .ok (S, recs, stop)) (h' : solve mat mesh' none none 1 o' perm' = .ok (S', recs', stop'))
    (hm : GoodMat mat) (ht : FiniteTensile mat) (hv : ValidMesh mesh.frame) (hv' : ValidMesh mesh'.frame)
    (hp : PositiveLengths mesh.rows none none) (hp' : PositiveLengths mesh'.rows none none) {σ : ℕ → ℕ}
    (hn : Nested mesh.rows mesh'.rows σ) (htol : 0 ≤ o.tol) (hlin : ExactLin o.lin) (hperm : PermOf S.n perm)
    (htol' : 0 ≤ o'.tol) (hlin' : ExactLin o'.lin) (hperm' : PermOf S'.n perm')
    {cs cs' : ConstraintSys K} (hC : constraint mat mesh = .ok cs) (hC' : constraint mat mesh' = .ok cs')
    (k k' : ℕ) (a b a' b' : Rec K) (ha : recs[k]? = some a) (hb : recs[k + 1]? = some b)
    (ha' : recs'[k']? = some a') (hb' : recs'[k' + 1]? = some b')
    (hkeep : ∀ w, Follows mat mesh'.rows o'.tol a'.Z a'.x w → Follows mat mesh.rows o.tol a.Z a.x (restrictTo σ w)) :
    (totalForce cs.C (fun j => b.x (2 * mesh.rows.length + j)) 2 -
      totalForce cs.C (fun j => a.x (2 * mesh.rows.length + j)) 2) / (a.Z - b.Z) ≤
    (totalForce cs'.C (fun j => b'.x (2 * mesh'.rows.length + j)) 2 -
      totalForce cs'.C (fun j => a'.x (2 * mesh'.rows.length + j)) 2) / (a'.Z - b'.Z) := by
  obtain ⟨Km, -, hK, -⟩ := solve_run h
  obtain ⟨Km', -, hK', -⟩ := solve_run h'
  obtain ⟨-, ⟨L, hL⟩, -, -⟩ := C65_lengths hK
  obtain ⟨-, ⟨L', hL'⟩, -, -⟩ := C65_lengths hK'
  have h1 : |(1 : K)| ≤ 1 := by simp
  obtain ⟨v, hx, hf, hg, hmin⟩ := C76_least h hm hv hp h1 hL htol hlin hperm k a b ha hb
  obtain ⟨v', hx', hf', hg', -⟩ := C76_least h' hm hv' hp' h1 hL' htol' hlin' hperm' k' a' b' ha' hb'
  rw [C114_slope h hm hp hL htol hlin hperm hC k a b ha hb v hx, C114_slope h' hm hp' hL' htol' hlin' hperm' hC' k' a' b' ha' hb' v' hx']
  refine (hmin _ (hkeep v' hf') ?_).trans (nested_elastic hK hK' hm ht hv hv' hp hp' hn hL hL' v')
  intro i f hi hE
  exact absurd hE (ht f (nodeFiber_mem hi))

/-- C144: at the start of the runs. If the finer mesh also has the connections of the coarser one, and the same initial thickness, its
initial stiffness is at least that of the coarser mesh. -/
theorem C144_start (h : solve mat mesh none none 1 o perm = .ok (S, recs, stop)) (h' : solve mat mesh' none none 1 o' perm' = .ok (S', recs', stop'))
    (hm : GoodMat mat) (ht : FiniteTensile mat) (hv : ValidMesh mesh.frame) (hv' : ValidMesh mesh'.frame)
    (hp : PositiveLengths mesh.rows none none) (hp' : PositiveLengths mesh'.rows none none) {σ : ℕ → ℕ}
    (hn : Nested mesh.rows mesh'.rows σ) (hsame : SameContacts mesh.rows mesh'.rows σ) (htol : 0 ≤ o.tol) (hlin : ExactLin o.lin)
    (hperm : PermOf S.n perm) (htol' : o'.tol = o.tol) (hlin' : ExactLin o'.lin) (hperm' : PermOf S'.n perm')
    {cs cs' : ConstraintSys K} (hC : constraint mat mesh = .ok cs) (hC' : constraint mat mesh' = .ok cs') (hZ : cs'.Z = cs.Z)
    (b b' : Rec K) (hb : recs[1]? = some b) (hb' : recs'[1]? = some b') :
    totalForce cs.C (fun j => b.x (2 * mesh.rows.length + j)) 2 / (cs.Z - b.Z) ≤
      totalForce cs'.C (fun j => b'.x (2 * mesh'.rows.length + j)) 2 / (cs'.Z - b'.Z) := by
  obtain ⟨-, a, ha, hx, -, hZa, -⟩ := C40_itermax h
  obtain ⟨-, a', ha', hx', -, hZa', -⟩ := C40_itermax h'
  obtain ⟨_, cs1, _, hC1, hS1, _⟩ := solve_run h
  obtain ⟨_, cs2, _, hC2, hS2, _⟩ := solve_run h'
  rw [hC] at hC1; cases hC1
  rw [hC'] at hC2; cases hC2
  have e1 : a.Z = cs.Z := by rw [hZa, hS1]; rfl
  have e2 : a'.Z = cs'.Z := by rw [hZa', hS2]; rfl
  have x1 : ∀ r, a.x r = 0 := fun r => by rw [hx]
  have x2 : ∀ r, a'.x r = 0 := fun r => by rw [hx']
  have hthick : ∀ i, i < mesh.rows.length → nodeThick mat mesh'.rows (σ i) = nodeThick mat mesh.rows i := fun i hi => nested_thick hn hi
  have hcr : ConstraintsReciprocal mesh.rows := by have := hv.constraints; rwa [rows_meshFrame] at this
  have hkeep : ∀ w, Follows mat mesh'.rows o'.tol a'.Z a'.x w → Follows mat mesh.rows o.tol a.Z a.x (restrictTo σ w) := by
    intro w hw i j hij
    obtain ⟨hle, r, hr, hc⟩ := hij
    have hi := (List.getElem?_eq_some_iff.1 hr).1
    obtain ⟨j', p, hj', hp', -⟩ := hcr i r hr
    have hjj : j' = j := by
      have := hj'.symm.trans hc
      exact_mod_cast this
    subst hjj
    have hj := (List.getElem?_eq_some_iff.1 hp').1
    obtain ⟨g1, g2, g3⟩ := hw (σ i) (σ j') (hsame.pair i j' ⟨hle, r, hr, hc⟩)
    have hσ : i ≠ j' → σ i ≠ σ j' := by
      intro hne
      rcases Nat.lt_or_gt_of_ne hne with hlt | hlt
      · exact (hn.mono i j' hlt hj).ne
      · exact (hn.mono j' i hlt hi).ne'
    simp only [restrict_even, floorGap, pairGap, roofGap, x1, x2, e1, e2, hZ, hthick i hi, hthick j' hj, hsame.height i hi, hsame.height j' hj,
      htol', add_zero] at g1 g2 g3 ⊢
    exact ⟨g1, fun hne => g2 (hσ hne), g3⟩
  have := C144_step h h' hm ht hv hv' hp hp' hn htol hlin hperm (by rw [htol']; exact htol) hlin' hperm' hC hC' 0 0 a b a' b' ha hb ha' hb' hkeep
  have z1 : totalForce cs.C (fun j => a.x (2 * mesh.rows.length + j)) 2 = 0 := by simp [totalForce, x1]
  have z2 : totalForce cs'.C (fun j => a'.x (2 * mesh'.rows.length + j)) 2 = 0 := by simp [totalForce, x2]
  rwa [z1, z2, sub_zero, sub_zero, e1, e2] at this

/-- C144: at a given height of the plate, or lower, the finer mesh has stored at least the elastic energy of the coarser one (up to `tol`
times the sum of the contact forces), when no contact of the coarser one pulls. -/
theorem C144_work (h : solve mat mesh none none 1 o perm = .ok (S, recs, stop)) (h' : solve mat mesh' none none 1 o' perm' = .ok (S', recs', stop'))
    (hm : GoodMat mat) (ht : FiniteTensile mat) (hv : ValidMesh mesh.frame) (hv' : ValidMesh mesh'.frame)
    (hp : PositiveLengths mesh.rows none none) (hp' : PositiveLengths mesh'.rows none none) {σ : ℕ → ℕ}
    (hn : Nested mesh.rows mesh'.rows σ) (hsame : SameContacts mesh.rows mesh'.rows σ)
    {L L' : ℕ → K} (hL : BeamLengths mesh.rows none none L) (hL' : BeamLengths mesh'.rows none none L')
    (htol : 0 ≤ o.tol) (hlin : ExactLin o.lin) (hperm : PermOf S.n perm)
    (htol' : 0 ≤ o'.tol) (hlin' : ExactLin o'.lin) (hperm' : PermOf S'.n perm')
    {cs cs' : ConstraintSys K} (hC : constraint mat mesh = .ok cs) (hC' : constraint mat mesh' = .ok cs')
    (hadm' : Admissible cs' (fun _ => 0))
    (k k' : ℕ) (a a' : Rec K) (ha : recs[k]? = some a) (ha' : recs'[k']? = some a') (hZ : a'.Z ≤ a.Z)
    (hpush : ∀ j, j < cs.C.nrows → 0 ≤ a.x (2 * mesh.rows.length + j)) :
    elasticEnergy mat mesh.rows 1 L a.x ≤ elasticEnergy mat mesh'.rows 1 L' a'.x +
      2 * o.tol * ∑ j ∈ Finset.range cs.C.nrows, a.x (2 * mesh.rows.length + j) := by
  obtain ⟨Km, -, hK, -⟩ := solve_run h
  obtain ⟨Km', -, hK', -⟩ := solve_run h'
  have hcr' : ConstraintsReciprocal mesh'.rows := by have := hv'.constraints; rwa [rows_meshFrame] at this
  have hcr : ConstraintsReciprocal mesh.rows := by have := hv.constraints; rwa [rows_meshFrame] at this
  have hnp := C46_nonPenetrating h' hm hp' htol' hlin' hperm' hC' hadm' hcr' k' a' ha'
  have hle := nested_elastic hK hK' hm ht hv hv' hp hp' hn hL hL' a'.x
  have hin : ∀ i, i < mesh.rows.length → σ i < mesh'.rows.length := by
    intro i hi
    obtain ⟨r', hr', -⟩ := hn.node i _ (List.getElem?_eq_getElem hi)
    exact (List.getElem?_eq_some_iff.1 hr').1
  have := C71_minimum h hm hv hp htol hlin hperm (by simp) hC hL k a ha hpush (restrictTo σ a'.x)
    (fun i f hi hE => absurd hE (ht f (nodeFiber_mem hi))) (by
    refine ⟨fun i hi => ?_, fun i hi => ?_, fun i j r hr hj hij => ?_⟩
    · have := hnp.floor (σ i) (hin i hi)
      rw [nested_thick hn hi, hsame.height i hi] at this
      rw [restrict_even]; exact this
    · have := hnp.roof (σ i) (hin i hi)
      rw [nested_thick hn hi, hsame.height i hi] at this
      rw [restrict_even]; linarith
    · have hi := (List.getElem?_eq_some_iff.1 hr).1
      obtain ⟨j', p, hj', hp', -⟩ := hcr i r hr
      obtain rfl : j' = j := by
        have := hj'.symm.trans hj
        exact_mod_cast this
      have hjl := (List.getElem?_eq_some_iff.1 hp').1
      obtain ⟨-, q, hq, hqc⟩ := hsame.pair i j' ⟨hij.le, r, hr, hj⟩
      have := hnp.pair (σ i) (σ j') q hq hqc (hn.mono i j' hij hjl)
      rw [nested_thick hn hi, nested_thick hn hjl, hsame.height i hi, hsame.height j' hjl] at this
      rw [restrict_even, restrict_even]; exact this)
  linarith

end Fibermat
