import Verif.Props.Stiffer

/-! # Longer beams make a softer mat (C117) -/

set_option linter.unusedSectionVars false
set_option linter.unusedSimpArgs false

namespace Fibermat
variable {K : Type} [Field K] [LinearOrder K] [IsStrictOrderedRing K]
open Spec

/-! ## The bounds on the lengths -/

/-- A line through `(P, a)` and `(Q, b)` that rises by at most its horizontal extent stays below a second line, when its ends are
raised by at most as much as they are moved to the right. -/
theorem line_le {P Q a b P' Q' a' b' x : K} (hPQ : P < Q) (hPQ' : P' < Q') (hab : a ≤ b) (hs : b - a ≤ Q - P)
    (h0 : P ≤ P' ∧ P' - P ≤ a' - a) (h1 : Q ≤ Q' ∧ Q' - Q ≤ b' - b) (hx : P' ≤ x ∧ x ≤ Q') :
    a + (b - a) * ((x - P) / (Q - P)) ≤ a' + (b' - a') * ((x - P') / (Q' - P')) := by
  have hd : 0 < Q - P := sub_pos.2 hPQ
  have hd' : 0 < Q' - P' := sub_pos.2 hPQ'
  set s := (b - a) / (Q - P) with hsd
  have s0 : 0 ≤ s := div_nonneg (sub_nonneg.2 hab) hd.le
  have s1 : s ≤ 1 := (div_le_one hd).2 hs
  have hb : b = a + s * (Q - P) := by rw [hsd]; field_simp; ring
  set t := (x - P') / (Q' - P') with htd
  have t0 : 0 ≤ t := div_nonneg (sub_nonneg.2 hx.1) hd'.le
  have t1 : t ≤ 1 := (div_le_one hd').2 (by linarith [hx.2])
  have hxe : x = P' + t * (Q' - P') := by rw [htd]; field_simp; ring
  have e : a + (b - a) * ((x - P) / (Q - P)) = (1 - t) * (a + s * (P' - P)) + t * (b + s * (Q' - Q)) := by
    have : a + (b - a) * ((x - P) / (Q - P)) = a + s * (x - P) := by rw [hsd]; ring
    rw [this, hxe, hb]; ring
  have e0 : a + s * (P' - P) ≤ a' := by nlinarith [mul_nonneg (sub_nonneg.2 s1) (sub_nonneg.2 h0.1)]
  have e1 : b + s * (Q' - Q) ≤ b' := by nlinarith [mul_nonneg (sub_nonneg.2 s1) (sub_nonneg.2 h1.1)]
  rw [e]
  nlinarith [mul_nonneg (sub_nonneg.2 t1) (sub_nonneg.2 e0), mul_nonneg t0 (sub_nonneg.2 e1)]

variable {rows : List (MeshRow K)} {lmin lmax lmin' lmax' : Option K}

/-- C117: raising the bounds `lmin` and `lmax` makes all the beams longer. -/
theorem C117_order {m M : K} (hb : RawBounds rows m M) {L L' : ℕ → K} (hL : BeamLengths rows lmin lmax L)
    (hL' : BeamLengths rows lmin' lmax' L') (hlo : lmin.getD m ≤ lmin'.getD m) (hhi : lmax.getD M ≤ lmax'.getD M)
    (ho : lmin.getD m ≤ lmax.getD M) (ho' : lmin'.getD m ≤ lmax'.getD M) (i : ℕ) (hi : StartsBeam rows i) : L i ≤ L' i := by
  obtain ⟨g1, g2⟩ := hL m M hb i hi
  obtain ⟨g1', g2'⟩ := hL' m M hb i hi
  have hmi := hb.least.2 ⟨i, hi, rfl⟩
  have hMi := hb.greatest.2 ⟨i, hi, rfl⟩
  generalize lmin.getD m = a at *
  generalize lmax.getD M = b at *
  generalize lmin'.getD m = a' at *
  generalize lmax'.getD M = b' at *
  generalize beamLength rows i = x at *
  have hmM : m ≤ M := hmi.trans hMi
  have c1 : min m a ≤ max M b := (min_le_left _ _).trans (hmM.trans (le_max_left _ _))
  have c1' : min m a' ≤ max M b' := (min_le_left _ _).trans (hmM.trans (le_max_left _ _))
  have x0 : min m a ≤ x := (min_le_left _ _).trans hmi
  have x1 : x ≤ max M b := hMi.trans (le_max_left _ _)
  have x0' : min m a' ≤ x := (min_le_left _ _).trans hmi
  have x1' : x ≤ max M b' := hMi.trans (le_max_left _ _)
  rcases c1.eq_or_lt with d | d
  · rw [g2 d]
    rcases c1'.eq_or_lt with d' | d'
    · rw [g2' d']; exact hhi
    · rw [g1' d']
      have ha : b ≤ a := (le_max_right M b).trans (d ▸ min_le_right m a)
      have : 0 ≤ (b' - a') * ((x - min m a') / (max M b' - min m a')) :=
        mul_nonneg (sub_nonneg.2 ho') (div_nonneg (sub_nonneg.2 x0') (sub_nonneg.2 c1'))
      linarith
  · rw [g1 d]
    rcases c1'.eq_or_lt with d' | d'
    · rw [g2' d']
      have : (x - min m a) / (max M b - min m a) ≤ 1 := (div_le_one (sub_pos.2 d)).2 (by linarith)
      nlinarith [mul_nonneg (sub_nonneg.2 ho) (sub_nonneg.2 this)]
    · rw [g1' d']
      refine line_le d d' ho ?_ ⟨min_le_min_left _ hlo, ?_⟩ ⟨max_le_max_left _ hhi, ?_⟩ ⟨x0', x1'⟩
      · have := le_max_right M b
        have := min_le_right m a
        linarith
      · rcases le_total m a with h | h
        · rw [min_eq_left h, min_eq_left (h.trans hlo)]; linarith
        · rw [min_eq_right h]
          have := min_le_right m a'
          linarith
      · rcases le_total M b with h | h
        · rw [max_eq_right h, max_eq_right (h.trans hhi)]
        · rw [max_eq_left h]
          rcases le_total M b' with h' | h'
          · rw [max_eq_right h']; linarith
          · rw [max_eq_left h']; linarith

/-! ## One beam -/

theorem transverse_anti {size l l' : K} {f : Fiber K} (hf : GoodFiber size f) (hl : 0 < l') (hll : l' ≤ l) :
    transverse f l ≤ transverse f l' := by
  have hA := fiberArea_pos hf
  have hG := hf.G
  have hh := hf.h
  unfold transverse
  rcases hE : f.E with _ | E
  · simp only; gcongr
  · have := tensile_pos hf hE
    simp only; gcongr

/-- A longer beam without rotations needs at most the energy of a shorter one without coupling, or without rotations. -/
theorem elementEnergy_longer {size size' l l' c c' : K} {f f' : Fiber K} (hf : GoodFiber size f) (hf' : GoodFiber size' f')
    (hl : 0 < l') (hll : l' ≤ l) (hh : f'.h = f.h) (hb : f.b ≤ f'.b) (hG : f.G ≤ f'.G) (hE : f.E ≤ f'.E)
    (ui ti uj tj : K) (hz : f'.E = ⊤ → ti = 0 ∧ tj = 0) (hc : c' = 0 ∨ f'.E = ⊤) :
    elementEnergy f l c ui 0 uj 0 ≤ elementEnergy f' l' c' ui ti uj tj := by
  have hT := (transverse_le hf hf' (hl.trans_le hll) hh hb hG hE).trans (transverse_anti hf' hl hll)
  have hT' := transverse_pos' hf' hl
  have g' := hf'.G
  have e : elementEnergy f l c ui 0 uj 0 = transverse f l * (ui - uj) ^ 2 := by
    unfold elementEnergy
    rcases f.E with _ | E <;> simp
  rw [e]
  refine (mul_le_mul_of_nonneg_right hT (sq_nonneg _)).trans ?_
  unfold elementEnergy
  rcases hE' : f'.E with _ | E'
  · obtain ⟨rfl, rfl⟩ := hz hE'
    simp
  · have e1 := tensile_pos hf' hE'
    have hc0 : c' = 0 := hc.resolve_right (by rw [hE']; exact WithTop.coe_ne_top)
    simp only [hc0]
    refine mul_le_mul_of_nonneg_left ?_ hT'.le
    have : 0 ≤ l' ^ 2 / 4 * (ti + tj) ^ 2 := by positivity
    have : 0 ≤ (l' ^ 2 / 12 + E' / f'.G * f'.h ^ 2) * (ti - tj) ^ 2 := by positivity
    nlinarith

/-! ## The whole mat -/

section
variable {mat mat' : Mat K}

theorem Spec.StifferMat.energy_longer (hs : StifferMat mat mat') (hm : GoodMat mat) (hm' : GoodMat mat')
    (hsame : ∀ i, StartsBeam rows i → nodeFiber mat' rows (succNode rows i) = nodeFiber mat' rows i)
    {L L' : ℕ → K} (hL' : ∀ i, StartsBeam rows i → 0 < L' i) (hLL : ∀ i, StartsBeam rows i → L' i ≤ L i) {c c' : K}
    (hc : c' = 0 ∨ ∀ f ∈ mat'.fibers, f.E = ⊤) {w : ℕ → K} (hw : Guided mat' rows w) :
    elasticEnergy mat rows c L (turnLess 0 w) ≤ elasticEnergy mat' rows c' L' w := by
  obtain ⟨size, -, hg⟩ := hm.size
  obtain ⟨size', -, hg'⟩ := hm'.size
  unfold elasticEnergy
  apply Finset.sum_le_sum
  intro i _
  by_cases hst : StartsBeam rows i
  · rw [if_pos hst, if_pos hst]
    cases hf : nodeFiber mat rows i with
    | none =>
      have : nodeFiber mat' rows i = none := by
        unfold nodeFiber at hf ⊢
        cases hr : rows[i]? with
        | none => rfl
        | some r =>
          rw [hr] at hf
          simp only [Option.bind_some, List.getElem?_eq_none_iff] at hf ⊢
          rw [hs.number]; exact hf
      rw [this]
    | some f =>
      obtain ⟨f', hf', k1, k2, k3, k4⟩ := hs.node hf
      rw [hf']
      simp only [turnLess_even, turnLess_odd, zero_mul]
      refine elementEnergy_longer (hg f (nodeFiber_mem hf)) (hg' f' (nodeFiber_mem hf')) (hL' i hst) (hLL i hst) k1 k2 k3 k4 _ _ _ _ ?_
        (hc.imp_right (fun h => h f' (nodeFiber_mem hf')))
      intro hE
      exact ⟨hw i f' hf' hE (Or.inl hst), hw _ f' ((hsame i hst).trans hf') hE (Or.inr ⟨i, hst, rfl⟩)⟩
  · rw [if_neg hst, if_neg hst]

theorem Spec.StifferMat.refl (m : Mat K) : StifferMat m m :=
  ⟨rfl, by intro k f f' h h'; rw [h] at h'; cases h'; exact ⟨rfl, le_rfl, le_rfl, le_rfl⟩⟩

end

variable {mat : Mat K} {mesh : Mesh K} {coupling coupling' : K} {o o' : Opts K}
  {perm perm' : Option (List ℕ)} {S S' : Sys K} {recs recs' : List (Rec K)} {stop stop' : Stop}

/-- C117: of two runs on the same mesh with different bounds on the lengths of the beams, the one with longer beams has the smaller slope
of the curve force against plate displacement, for a step that keeps no gap closed that the other does not; the run with the shorter
beams being without coupling, or with infinite tensile moduli. -/
theorem C117_step (h : solve mat mesh lmin lmax coupling o perm = .ok (S, recs, stop)) (hm : GoodMat mat)
    (h' : solve mat mesh lmin' lmax' coupling' o' perm' = .ok (S', recs', stop'))
    (hv : ValidMesh mesh.frame) (hp : PositiveLengths mesh.rows lmin lmax) (hp' : PositiveLengths mesh.rows lmin' lmax')
    {L L' : ℕ → K} (hL : BeamLengths mesh.rows lmin lmax L) (hL' : BeamLengths mesh.rows lmin' lmax' L')
    (hLL : ∀ i, StartsBeam mesh.rows i → L' i ≤ L i) (htol : 0 ≤ o.tol) (hlin : ExactLin o.lin) (hperm : PermOf S.n perm)
    (htol' : 0 ≤ o'.tol) (hlin' : ExactLin o'.lin) (hperm' : PermOf S'.n perm')
    {cs : ConstraintSys K} (hC : constraint mat mesh = .ok cs)
    (hc1 : |coupling| ≤ 1) (hc1' : |coupling'| ≤ 1) (hor : coupling' = 0 ∨ ∀ f ∈ mat.fibers, f.E = ⊤)
    (k k' : ℕ) (a b a' b' : Rec K) (ha : recs[k]? = some a) (hb : recs[k + 1]? = some b)
    (ha' : recs'[k']? = some a') (hb' : recs'[k' + 1]? = some b')
    (hkeep : ∀ w, Follows mat mesh.rows o'.tol a'.Z a'.x w → Follows mat mesh.rows o.tol a.Z a.x w) :
    (totalForce cs.C (fun j => b.x (2 * mesh.rows.length + j)) 2 -
      totalForce cs.C (fun j => a.x (2 * mesh.rows.length + j)) 2) / (a.Z - b.Z) ≤
    (totalForce cs.C (fun j => b'.x (2 * mesh.rows.length + j)) 2 -
      totalForce cs.C (fun j => a'.x (2 * mesh.rows.length + j)) 2) / (a'.Z - b'.Z) := by
  obtain ⟨v, v1, -, -, vmin⟩ := C76_least h hm hv hp hc1 hL htol hlin hperm k a b ha hb
  obtain ⟨v', v1', v2', v3', -⟩ := C76_least h' hm hv hp' hc1' hL' htol' hlin' hperm' k' a' b' ha' hb'
  rw [C114_slope h hm hp hL htol hlin hperm hC k a b ha hb v v1,
    C114_slope h' hm hp' hL' htol' hlin' hperm' hC k' a' b' ha' hb' v' v1']
  obtain ⟨b1, b2⟩ := run_beams h' hm hv hp' hL'
  have hs := Spec.StifferMat.refl mat
  refine (vmin (turnLess 0 v') ?_ (hs.guided v3' _)).trans (hs.energy_longer hm hm b2 b1 hLL hor v3')
  intro i j hij
  obtain ⟨q0, q1, q2⟩ := hkeep v' v2' i j hij
  simp only [turnLess_even]
  exact ⟨q0, q1, q2⟩

/-- The initial slope of the curve is smaller with longer beams. -/
theorem C117_start (h : solve mat mesh lmin lmax coupling o perm = .ok (S, recs, stop)) (hm : GoodMat mat)
    (h' : solve mat mesh lmin' lmax' coupling' o' perm' = .ok (S', recs', stop'))
    (hv : ValidMesh mesh.frame) (hp : PositiveLengths mesh.rows lmin lmax) (hp' : PositiveLengths mesh.rows lmin' lmax')
    {L L' : ℕ → K} (hL : BeamLengths mesh.rows lmin lmax L) (hL' : BeamLengths mesh.rows lmin' lmax' L')
    (hLL : ∀ i, StartsBeam mesh.rows i → L' i ≤ L i) (htol : 0 ≤ o.tol) (hlin : ExactLin o.lin) (hperm : PermOf S.n perm)
    (htol' : o'.tol = o.tol) (hlin' : ExactLin o'.lin) (hperm' : PermOf S'.n perm')
    {cs : ConstraintSys K} (hC : constraint mat mesh = .ok cs)
    (hc1 : |coupling| ≤ 1) (hc1' : |coupling'| ≤ 1) (hor : coupling' = 0 ∨ ∀ f ∈ mat.fibers, f.E = ⊤)
    (b b' : Rec K) (hb : recs[1]? = some b) (hb' : recs'[1]? = some b') :
    totalForce cs.C (fun j => b.x (2 * mesh.rows.length + j)) 2 / (cs.Z - b.Z) ≤
      totalForce cs.C (fun j => b'.x (2 * mesh.rows.length + j)) 2 / (cs.Z - b'.Z) := by
  obtain ⟨-, a, ha, hx, -, hZ, -⟩ := C40_itermax h
  obtain ⟨-, a', ha', hx', -, hZ', -⟩ := C40_itermax h'
  obtain ⟨_, cs1, _, hC1, hS1, _⟩ := solve_run h
  obtain ⟨_, cs2, _, hC2, hS2, _⟩ := solve_run h'
  rw [hC] at hC1; cases hC1
  rw [hC] at hC2; cases hC2
  have hZ0 : S.Z0 = cs.Z := by rw [hS1]; rfl
  have hZ0' : S'.Z0 = cs.Z := by rw [hS2]; rfl
  have hzero : ∀ (d : Rec K), (∀ r, d.x r = 0) → totalForce cs.C (fun j => d.x (2 * mesh.rows.length + j)) 2 = 0 := by
    intro d hd
    unfold totalForce
    simp [hd]
  have e : a.x = a'.x := by funext r; rw [hx, hx']
  have := C117_step h hm h' hv hp hp' hL hL' hLL htol hlin hperm (htol' ▸ htol) hlin' hperm' hC hc1 hc1' hor 0 0 a b a' b' ha hb ha' hb' (by
    intro w hw i j hij
    obtain ⟨q0, q1, q2⟩ := hw i j hij
    have hZZ : a.Z = a'.Z := by rw [hZ, hZ', hZ0, hZ0']
    rw [htol', ← e] at q0 q1
    rw [htol', ← e, ← hZZ] at q2
    exact ⟨q0, q1, q2⟩)
  rw [hzero a hx, hzero a' hx', sub_zero, sub_zero, hZ, hZ', hZ0, hZ0'] at this
  exact this

/-- At a given height of the plate, or lower, the mat with shorter beams has stored at least the elastic energy of the one with longer
beams (up to `tol` times the sum of the contact forces), when no contact of the latter pulls. -/
theorem C117_work (h : solve mat mesh lmin lmax coupling o perm = .ok (S, recs, stop)) (hm : GoodMat mat)
    (h' : solve mat mesh lmin' lmax' coupling' o' perm' = .ok (S', recs', stop'))
    (hv : ValidMesh mesh.frame) (hp : PositiveLengths mesh.rows lmin lmax) (hp' : PositiveLengths mesh.rows lmin' lmax')
    {L L' : ℕ → K} (hL : BeamLengths mesh.rows lmin lmax L) (hL' : BeamLengths mesh.rows lmin' lmax' L')
    (hLL : ∀ i, StartsBeam mesh.rows i → L' i ≤ L i) (htol : 0 ≤ o.tol) (hlin : ExactLin o.lin) (hperm : PermOf S.n perm)
    (htol' : 0 ≤ o'.tol) (hlin' : ExactLin o'.lin) (hperm' : PermOf S'.n perm')
    {cs : ConstraintSys K} (hC : constraint mat mesh = .ok cs) (hadm : Admissible cs (fun _ => 0))
    (hc1 : |coupling| ≤ 1) (hor : coupling' = 0 ∨ ∀ f ∈ mat.fibers, f.E = ⊤)
    (k k' : ℕ) (a a' : Rec K) (ha : recs[k]? = some a) (ha' : recs'[k']? = some a') (hZ : a'.Z ≤ a.Z)
    (hpush : ∀ j, j < cs.C.nrows → 0 ≤ a.x (2 * mesh.rows.length + j)) :
    elasticEnergy mat mesh.rows coupling L a.x ≤ elasticEnergy mat mesh.rows coupling' L' a'.x +
      2 * o.tol * ∑ j ∈ Finset.range cs.C.nrows, a.x (2 * mesh.rows.length + j) := by
  have hcr : ConstraintsReciprocal mesh.rows := by have := hv.constraints; rwa [rows_meshFrame] at this
  have hnp := C46_nonPenetrating h' hm hp' htol' hlin' hperm' hC hadm hcr k' a' ha'
  have hg := C70_guided h' hm hv hp' k' a' ha'
  obtain ⟨b1, b2⟩ := run_beams h' hm hv hp' hL'
  have hs := Spec.StifferMat.refl mat
  have hle := hs.energy_longer (c := coupling) hm hm b2 b1 hLL hor hg
  have := C71_minimum h hm hv hp htol hlin hperm hc1 hC hL k a ha hpush (turnLess 0 a'.x) (hs.guided hg _) (by
    refine ⟨fun i hi => ?_, fun i hi => ?_, fun i j r hr hj hij => ?_⟩
    · have := hnp.floor i hi
      rw [turnLess_even]; exact this
    · have := hnp.roof i hi
      rw [turnLess_even]; linarith
    · have := hnp.pair i j r hr hj hij
      rw [turnLess_even, turnLess_even]; exact this)
  linarith

end Fibermat
