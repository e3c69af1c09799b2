import Verif.Props.First
import Verif.Props.Linked
import Verif.Props.Loaded
import Verif.Props.Stiffer
import Verif.Props.Pipeline
import Verif.Spec.Idle

/-! # The material of fibers that do not connect the plates does not matter (C138) -/

set_option linter.unusedSectionVars false
set_option linter.unusedSimpArgs false

namespace Fibermat
variable {K : Type} [Field K] [LinearOrder K] [IsStrictOrderedRing K]
open Spec

section
variable {U : ℕ → Prop} {mat mat' : Mat K} {rows : List (MeshRow K)}

theorem sameBut_symm (hU : SameBut U mat mat') : SameBut U mat' mat :=
  ⟨hU.length.symm, fun k f f' h h' => (hU.thick k f' f h' h).symm, fun k f f' h h' hk => by
    obtain ⟨a, b, c⟩ := hU.same k f' f h' h hk
    exact ⟨a.symm, b.symm, c.symm⟩⟩

/-- The thickness at the nodes is the same. -/
theorem sameBut_thick (hU : SameBut U mat mat') (i : ℕ) : nodeThick mat' rows i = nodeThick mat rows i := by
  unfold nodeThick
  cases hr : rows[i]? with
  | none => rfl
  | some r =>
    simp only [Option.bind_some]
    cases hf : mat.fibers[r.fiber.toNat]? with
    | none =>
      have : mat'.fibers[r.fiber.toNat]? = none := by
        rw [List.getElem?_eq_none_iff] at hf ⊢
        rw [hU.length]; exact hf
      rw [this]
    | some f =>
      have hlt := (List.getElem?_eq_some_iff.1 hf).1
      have hf' : mat'.fibers[r.fiber.toNat]? = some (mat'.fibers[r.fiber.toNat]'(by rw [hU.length]; exact hlt)) :=
        List.getElem?_eq_getElem (by rw [hU.length]; exact hlt)
      rw [hf']
      simp only [Option.map_some, Option.getD_some]
      exact hU.thick _ _ _ hf hf'

/-- The gaps are the same. -/
theorem sameBut_gaps (hU : SameBut U mat mat') {Z : K} {u u' : ℕ → K} (hu : ∀ i, i < rows.length → u' (2 * i) = u (2 * i)) {i j : ℕ}
    (hi : i < rows.length) (hj : j < rows.length) :
    floorGap mat' rows u' i = floorGap mat rows u i ∧ pairGap mat' rows u' i j = pairGap mat rows u i j ∧
      roofGap mat' rows Z u' j = roofGap mat rows Z u j := by
  simp only [floorGap, pairGap, roofGap, sameBut_thick hU, hu i hi, hu j hj, and_self]

theorem sameBut_chained (hU : SameBut U mat mat') {tol : K} {u u' : ℕ → K} (hu : ∀ i, i < rows.length → u' (2 * i) = u (2 * i))
    (hpair : ∀ i j, IsPair rows i j → i < rows.length ∧ j < rows.length) {i j : ℕ} (h : Chained mat' rows tol u' i j) :
    Chained mat rows tol u i j := by
  have hj : ∀ x y, Joined mat' rows tol u' x y → Joined mat rows tol u x y := by
    rintro x y (h | ⟨h1, h2, h3⟩)
    · exact Or.inl h
    · obtain ⟨hx, hy⟩ := hpair x y h1
      rw [(sameBut_gaps hU (Z := 0) hu hx hy).2.1] at h3
      exact Or.inr ⟨h1, h2, h3⟩
  induction h with
  | refl => exact Relation.ReflTransGen.refl
  | tail _ h2 ih => exact ih.tail (h2.imp (hj _ _) (hj _ _))

theorem sameBut_ends (hU : SameBut U mat mat') {tol Z : K} {u u' : ℕ → K} (hu : ∀ i, i < rows.length → u' (2 * i) = u (2 * i))
    (hpair : ∀ i j, IsPair rows i j → i < rows.length ∧ j < rows.length) {m : ℕ} :
    (Hung mat' rows tol Z u' m → Hung mat rows tol Z u m) ∧ (Based mat' rows tol u' m → Based mat rows tol u m) := by
  constructor
  · rintro ⟨n, ⟨i, hi, hg⟩, hl⟩
    obtain ⟨h1, h2⟩ := hpair i n hi
    rw [(sameBut_gaps hU hu h1 h2).2.2] at hg
    exact ⟨n, ⟨i, hi, hg⟩, sameBut_chained hU hu hpair hl⟩
  · rintro ⟨n, ⟨j, hj, hg⟩, hl⟩
    obtain ⟨h1, h2⟩ := hpair n j hj
    rw [(sameBut_gaps hU (Z := 0) hu h1 h2).1] at hg
    exact ⟨n, ⟨j, hj, hg⟩, sameBut_chained hU hu hpair hl⟩

theorem sameBut_follows (hU : SameBut U mat mat') {tol Z : K} {u u' v : ℕ → K} (hu : ∀ i, i < rows.length → u' (2 * i) = u (2 * i))
    (hpair : ∀ i j, IsPair rows i j → i < rows.length ∧ j < rows.length) (h : Follows mat' rows tol Z u' v) :
    Follows mat rows tol Z u v := by
  intro i j hij
  obtain ⟨hi, hj⟩ := hpair i j hij
  have := h i j hij
  rw [(sameBut_gaps hU (Z := Z) hu hi hj).1, (sameBut_gaps hU (Z := Z) hu hi hj).2.1, (sameBut_gaps hU (Z := Z) hu hi hj).2.2] at this
  exact this

theorem sameBut_supported (hU : SameBut U mat mat') {tol Z : K} {u u' : ℕ → K} (hu : ∀ i, i < rows.length → u' (2 * i) = u (2 * i))
    (hpair : ∀ i j, IsPair rows i j → i < rows.length ∧ j < rows.length) (h : Unsupported mat' rows tol Z u') :
    Unsupported mat rows tol Z u := by
  obtain ⟨v, h1, h2, h3⟩ := h
  refine ⟨v, h1, h2, ?_⟩
  intro i j hij
  obtain ⟨hi, hj⟩ := hpair i j hij
  have := h3 i j hij
  rw [(sameBut_gaps hU (Z := Z) hu hi hj).1, (sameBut_gaps hU (Z := Z) hu hi hj).2.1, (sameBut_gaps hU (Z := Z) hu hi hj).2.2] at this
  exact this

/-- A beam that moves as a whole without rotation has no elastic energy. -/
theorem elementEnergy_still (f : Fiber K) (l c y : K) : elementEnergy f l c y 0 y 0 = 0 := by
  unfold elementEnergy; ring

theorem elementEnergy_congr {f f' : Fiber K} (hh : f'.h = f.h) (hb : f'.b = f.b) (hG : f'.G = f.G) (hE : f'.E = f.E) (l c a b y d : K) :
    elementEnergy f' l c a b y d = elementEnergy f l c a b y d := by
  unfold elementEnergy transverse sectionArea
  rw [hh, hb, hG, hE]

/-- The motion does not deform the beams of the fibers of `U`. -/
def StillOn (U : ℕ → Prop) (rows : List (MeshRow K)) (v : ℕ → K) : Prop :=
  ∀ i r, rows[i]? = some r → U r.fiber.toNat → StartsBeam rows i →
    v (2 * succNode rows i) = v (2 * i) ∧ v (2 * i + 1) = 0 ∧ v (2 * succNode rows i + 1) = 0

/-- Motions that do not deform the fibers of `U` have the same energy in both mats. -/
theorem sameBut_energy (hU : SameBut U mat mat') {c : K} {L v : ℕ → K} (hv : StillOn U rows v) :
    elasticEnergy mat' rows c L v = elasticEnergy mat rows c L v := by
  unfold elasticEnergy
  refine Finset.sum_congr rfl ?_
  intro i hi
  rw [Finset.mem_range] at hi
  by_cases hs : StartsBeam rows i
  · rw [if_pos hs, if_pos hs]
    have hr : rows[i]? = some rows[i] := List.getElem?_eq_getElem hi
    unfold nodeFiber
    rw [hr]
    simp only [Option.bind_some]
    cases hf : mat.fibers[rows[i].fiber.toNat]? with
    | none =>
      have : mat'.fibers[rows[i].fiber.toNat]? = none := by
        rw [List.getElem?_eq_none_iff] at hf ⊢
        rw [hU.length]; exact hf
      rw [this]
    | some f =>
      have hlt := (List.getElem?_eq_some_iff.1 hf).1
      have hf' : mat'.fibers[rows[i].fiber.toNat]? = some (mat'.fibers[rows[i].fiber.toNat]'(by rw [hU.length]; exact hlt)) :=
        List.getElem?_eq_getElem (by rw [hU.length]; exact hlt)
      rw [hf']
      simp only
      by_cases hu : U rows[i].fiber.toNat
      · obtain ⟨e1, e2, e3⟩ := hv i _ hr hu hs
        rw [e1, e2, e3, elementEnergy_still, elementEnergy_still]
      · obtain ⟨e1, e2, e3⟩ := hU.same _ _ _ hf hf' hu
        exact elementEnergy_congr (hU.thick _ _ _ hf hf') e1 e2 e3 _ _ _ _ _ _
  · rw [if_neg hs, if_neg hs]

end

variable {U : ℕ → Prop} {mat mat' : Mat K} {mesh : Mesh K} {lmin lmax : Option K} {coupling : K} {o o' : Opts K}
  {perm perm' : Option (List ℕ)} {S S' : Sys K} {recs recs' : List (Rec K)} {stop stop' : Stop}

theorem sameBut_guided (hU : SameBut U mat mat') (hvm : ValidMesh mesh.frame) {v : ℕ → K} (hv : StillOn U mesh.rows v)
    (h : Guided mat' mesh.rows v) : Guided mat mesh.rows v := by
  intro i f hf hE hon
  unfold nodeFiber at hf
  cases hr : mesh.rows[i]? with
  | none => rw [hr] at hf; cases hf
  | some r =>
    rw [hr] at hf
    simp only [Option.bind_some] at hf
    by_cases hu : U r.fiber.toNat
    · rcases hon with hs | ⟨k, hs, rfl⟩
      · exact (hv i r hr hu hs).2.1
      · obtain ⟨p, q, hp, hq, e⟩ := beam_sameFiber hvm hs
        rw [hr] at hq; cases hq
        exact (hv k p hp (by rw [e]; exact hu) hs).2.2
    · have hlt := (List.getElem?_eq_some_iff.1 hf).1
      have hf' : mat'.fibers[r.fiber.toNat]? = some (mat'.fibers[r.fiber.toNat]'(by rw [hU.length]; exact hlt)) :=
        List.getElem?_eq_getElem (by rw [hU.length]; exact hlt)
      refine h i _ (by unfold nodeFiber; rw [hr]; exact hf') ?_ hon
      rw [(hU.same _ _ _ hf hf' hu).2.2]
      exact hE

/-- The motion of a step is the only one with the least energy when the fibers are supported. -/
theorem least_unique (h : solve mat mesh lmin lmax coupling o perm = .ok (S, recs, stop)) (hm : GoodMat mat)
    (hv : ValidMesh mesh.frame) (hp : PositiveLengths mesh.rows lmin lmax) {L : ℕ → K}
    (hL : BeamLengths mesh.rows lmin lmax L) (htol : 0 ≤ o.tol) (hlin : ExactLin o.lin) (hperm : PermOf S.n perm)
    (k : ℕ) (a b : Rec K) (ha : recs[k]? = some a) (hb : recs[k + 1]? = some b)
    (hfloat : ¬ Floating mat mesh.rows coupling L o.tol a.Z a.x) {v w : ℕ → K} (hx : ∀ r, b.x r = a.x r - (a.Z - b.Z) * v r)
    (hwf : Follows mat mesh.rows o.tol a.Z a.x w) (hwg : Guided mat mesh.rows w)
    (hle : elasticEnergy mat mesh.rows coupling L w = elasticEnergy mat mesh.rows coupling L v) :
    ∀ i, i < mesh.rows.length → w (2 * i) = v (2 * i) ∧ (OnBeam mesh.rows i → w (2 * i + 1) = v (2 * i + 1)) := by
  have hbeams : BeamsCyclic mesh.rows := by have := hv.beams; rwa [rows_meshFrame] at this
  obtain ⟨Km, bl, v', t, has, hpos, hbl, ht, hZ, hx', hf, hfr, hvar⟩ := step_variation h hm hp htol hlin hperm ha hb
  have htt : a.Z - b.Z = t := by rw [hZ]; ring
  obtain rfl : v = v' := by
    funext r
    have h1 := hx r
    rw [htt] at h1
    have h2 := hx' r
    apply mul_left_cancel₀ (ne_of_gt ht)
    linarith
  have hwg' := (has.guided hbeams).1 hwg
  have hvg := (has.guided hbeams).2 hfr
  have hkeep : KeepsContacts mat mesh.rows o.tol a.Z a.x (fun r => w r - v r) := by
    intro i j hij
    obtain ⟨a0, a1, a2⟩ := hf i j hij
    obtain ⟨b0, b1, b2⟩ := hwf i j hij
    refine ⟨fun hg => ?_, fun hne hg => ?_, fun hg => ?_⟩
    · simp only [a0 hg, b0 hg, sub_self]
    · simp only [a1 hne hg, b1 hne hg]
    · simp only [a2 hg, b2 hg, sub_self]
  have := hvar (fun r => w r - v r) (fun r hr => by simp only [hwg' r hr, hfr r hr, sub_self]) hkeep
  have e : (fun r => v r + (w r - v r)) = w := by funext r; ring
  rw [e, has.energy_doc hm hpos ((hbl L).1 hL), has.energy_doc hm hpos ((hbl L).1 hL), has.energy_doc hm hpos ((hbl L).1 hL), hle] at this
  have h0 : elasticEnergy mat mesh.rows coupling L (fun r => w r - v r) = 0 := by linarith
  intro i hi
  by_contra hne
  apply hfloat
  refine ⟨fun r => w r - v r, ⟨i, hi, ?_⟩, ?_, h0, hkeep⟩
  · rw [not_and_or] at hne
    rcases hne with hne | hne
    · exact Or.inl (sub_ne_zero.2 hne)
    · push Not at hne
      exact Or.inr ⟨hne.1, sub_ne_zero.2 hne.2⟩
  · intro i f h1 h2 h3
    simp only [hwg i f h1 h2 h3, hvg i f h1 h2 h3, sub_self]

/-- C138: one step.  From states with the same plate height and the same displacements, in which the fibers of `U` do not connect the
plates, mats which differ only in the material and width of the fibers of `U` go to states with the same plate height and the same
displacements, and the force of the plate grows as much. -/
theorem C138_step (h : solve mat mesh lmin lmax coupling o perm = .ok (S, recs, stop)) (hm : GoodMat mat)
    (h' : solve mat' mesh lmin lmax coupling o' perm' = .ok (S', recs', stop')) (hm' : GoodMat mat')
    (hv : ValidMesh mesh.frame) (hp : PositiveLengths mesh.rows lmin lmax) (hcoup : |coupling| < 1) (htol : 0 ≤ o.tol)
    (hlin : ExactLin o.lin) (hperm : PermOf S.n perm) (htol' : o'.tol = o.tol) (hlin' : ExactLin o'.lin) (hperm' : PermOf S'.n perm')
    {cs cs' : ConstraintSys K} (hC : constraint mat mesh = .ok cs) (hC' : constraint mat' mesh = .ok cs')
    (hU : SameBut U mat mat') (k k' : ℕ) (a b a' b' : Rec K) (ha : recs[k]? = some a) (hb : recs[k + 1]? = some b)
    (ha' : recs'[k']? = some a') (hb' : recs'[k' + 1]? = some b') (hZ : a'.Z = a.Z)
    (hx : ∀ i, i < mesh.rows.length → a'.x (2 * i) = a.x (2 * i))
    (hidle : Idle U mat mesh.rows o.tol a.Z a.x) (hsup : ¬ Unsupported mat mesh.rows o.tol a.Z a.x) :
    b'.Z = b.Z ∧ (∀ i, i < mesh.rows.length → b'.x (2 * i) = b.x (2 * i) ∧
      (OnBeam mesh.rows i → b'.x (2 * i + 1) - a'.x (2 * i + 1) = b.x (2 * i + 1) - a.x (2 * i + 1))) ∧
    totalForce cs'.C (fun j => b'.x (2 * mesh.rows.length + j)) 2 - totalForce cs'.C (fun j => a'.x (2 * mesh.rows.length + j)) 2 =
      totalForce cs.C (fun j => b.x (2 * mesh.rows.length + j)) 2 - totalForce cs.C (fun j => a.x (2 * mesh.rows.length + j)) 2 := by
  obtain ⟨Km, cs0, hK, hC0, -, -⟩ := solve_run h
  have hpair : ∀ i j, IsPair mesh.rows i j → i < mesh.rows.length ∧ j < mesh.rows.length := by
    intro i j hij
    obtain ⟨bl, hs, l, has, hpos, hc, -⟩ := solve_sound h hm hp hK hC0
    obtain ⟨q, x, hq, rfl, rfl⟩ := hc.ofPair hij
    have := hc.lt x (List.mem_of_getElem? hq)
    omega
  have hU' := sameBut_symm hU
  have hx' : ∀ i, i < mesh.rows.length → a.x (2 * i) = a'.x (2 * i) := fun i hi => (hx i hi).symm
  have htl : 0 ≤ o'.tol := by rw [htol']; exact htol
  obtain ⟨-, ⟨L, hL⟩, -⟩ := C65_lengths hK
  have hd := C41_down h hm hp htol k a b ha hb
  have hd' := C41_down h' hm' hp htl k' a' b' ha' hb'
  have hne : a.Z - b.Z ≠ 0 := ne_of_gt (sub_pos.2 hd)
  have hne' : a'.Z - b'.Z ≠ 0 := ne_of_gt (sub_pos.2 hd')
  -- the motions
  obtain ⟨v, v1, v2, v3, v4⟩ := C76_least h hm hv hp hcoup.le hL htol hlin hperm k a b ha hb
  obtain ⟨v', w1, w2, w3, w4⟩ := C76_least h' hm' hv hp hcoup.le hL htl hlin' hperm' k' a' b' ha' hb'
  have hstill : StillOn U mesh.rows v := by
    obtain ⟨y, y1, -, y3⟩ := off_beams h hm hv hp hcoup.le hL htol hlin hperm (Or.inl hcoup) k a b ha hb
    obtain rfl : y = v := by
      funext r
      have e1 := y1 r
      have e2 := v1 r
      apply mul_left_cancel₀ hne
      linarith
    intro i r hr hu hs
    exact y3 i hs (hidle i r hr hu)
  have hstill' : StillOn U mesh.rows v' := by
    obtain ⟨y, y1, -, y3⟩ := off_beams h' hm' hv hp hcoup.le hL htl hlin' hperm' (Or.inl hcoup) k' a' b' ha' hb'
    obtain rfl : y = v' := by
      funext r
      have e1 := y1 r
      have e2 := w1 r
      apply mul_left_cancel₀ hne'
      linarith
    intro i r hr hu hs
    refine y3 i hs ?_
    rintro ⟨g1, g2⟩
    rw [htol', hZ] at g1
    rw [htol'] at g2
    exact hidle i r hr hu ⟨(sameBut_ends hU hx hpair).1 g1, (sameBut_ends hU (Z := 0) hx hpair).2 g2⟩
  rw [htol', hZ] at w2 w4
  have f1 := sameBut_follows hU hx hpair w2
  have f2 := sameBut_follows hU' hx' hpair v2
  have g1 := sameBut_guided hU hv hstill' w3
  have g2 := sameBut_guided hU' hv hstill v3
  have e1 := v4 v' f1 g1
  have e2 := w4 v f2 g2
  have en := sameBut_energy (c := coupling) (L := L) hU hstill
  have en' := sameBut_energy (c := coupling) (L := L) hU hstill'
  rw [en, en'] at e2
  have eE : elasticEnergy mat mesh.rows coupling L v' = elasticEnergy mat mesh.rows coupling L v := le_antisymm e2 e1
  have huniq := least_unique h hm hv hp hL htol hlin hperm k a b ha hb
    (fun hf => hsup ((C73_translation hK hm hv hp hcoup.le hL (Or.inl hcoup) _ _ _).1 hf)) v1 f1 g1 eE
  have hbZ := C137_height h hm hp htol hlin hperm h' hm' hp htol' hlin' hperm' (fun i _ => sameBut_thick hU i) k k' a b a' b' ha hb ha' hb'
    hZ hx v v' v1 w1 (fun i hi => (huniq i hi).1)
  refine ⟨hbZ, fun i hi => ⟨?_, fun hon => ?_⟩, ?_⟩
  · rw [w1, v1, hx i hi, (huniq i hi).1, hZ, hbZ]
  · rw [w1, v1, (huniq i hi).2 hon, hZ, hbZ]; ring
  · have s1 := C114_slope h hm hp hL htol hlin hperm hC k a b ha hb v v1
    have s2 := C114_slope h' hm' hp hL htl hlin' hperm' hC' k' a' b' ha' hb' v' w1
    rw [en', eE, ← s1, hZ, hbZ] at s2
    rw [div_left_inj' hne] at s2
    exact s2

/-- C138: mats which differ only in the material and width of the fibers of `U` have the same plate heights, displacements and forces
of the plate, as long as the fibers of `U` do not connect the plates. -/
theorem C138_same (h : solve mat mesh lmin lmax coupling o perm = .ok (S, recs, stop)) (hm : GoodMat mat)
    (h' : solve mat' mesh lmin lmax coupling o' perm' = .ok (S', recs', stop')) (hm' : GoodMat mat')
    (hv : ValidMesh mesh.frame) (hp : PositiveLengths mesh.rows lmin lmax) (hcoup : |coupling| < 1) (htol : 0 ≤ o.tol)
    (hlin : ExactLin o.lin) (hperm : PermOf S.n perm) (htol' : o'.tol = o.tol) (hlin' : ExactLin o'.lin) (hperm' : PermOf S'.n perm')
    {cs cs' : ConstraintSys K} (hC : constraint mat mesh = .ok cs) (hC' : constraint mat' mesh = .ok cs')
    (hU : SameBut U mat mat') (k : ℕ) (b b' : Rec K) (hb : recs[k]? = some b) (hb' : recs'[k]? = some b')
    (hidle : ∀ j a, j < k → recs[j]? = some a → Idle U mat mesh.rows o.tol a.Z a.x ∧ ¬ Unsupported mat mesh.rows o.tol a.Z a.x) :
    b'.Z = b.Z ∧ (∀ i, i < mesh.rows.length → b'.x (2 * i) = b.x (2 * i) ∧ (OnBeam mesh.rows i → b'.x (2 * i + 1) = b.x (2 * i + 1))) ∧
    totalForce cs'.C (fun j => b'.x (2 * mesh.rows.length + j)) 2 = totalForce cs.C (fun j => b.x (2 * mesh.rows.length + j)) 2 := by
  have hcr : ConstraintsReciprocal mesh.rows := by have := hv.constraints; rwa [rows_meshFrame] at this
  induction k generalizing b b' with
  | zero =>
    obtain ⟨-, a0, ha0, hx0, -, hZ0, -⟩ := C40_itermax h
    obtain ⟨-, a0', ha0', hx0', -, hZ0', -⟩ := C40_itermax h'
    rw [hb] at ha0; cases ha0
    rw [hb'] at ha0'; cases ha0'
    refine ⟨?_, fun i _ => ⟨by rw [hx0, hx0'], fun _ => by rw [hx0, hx0']⟩, ?_⟩
    · obtain ⟨_, cs1, _, hC1, hS1, _⟩ := solve_run h
      obtain ⟨_, cs2, _, hC2, hS2, _⟩ := solve_run h'
      rw [hC] at hC1; cases hC1
      rw [hC'] at hC2; cases hC2
      have e : S.Z0 = cs.Z := by rw [hS1]; rfl
      have e' : S'.Z0 = cs'.Z := by rw [hS2]; rfl
      obtain ⟨⟨⟨i, hi, ei⟩, hmax⟩, -⟩ := C37_geometric hC hm hcr
      obtain ⟨⟨⟨i', hi', ei'⟩, hmax'⟩, -⟩ := C37_geometric hC' hm' hcr
      rw [hZ0, hZ0', e, e']
      apply le_antisymm
      · rw [ei', sameBut_thick hU]; exact hmax i' hi'
      · rw [ei, ← sameBut_thick hU]; exact hmax' i hi
    · simp only [totalForce, hx0, hx0', mul_zero, Finset.sum_const_zero, ite_self]
  | succ k ih =>
    have hlt := (List.getElem?_eq_some_iff.1 hb).1
    have hlt' := (List.getElem?_eq_some_iff.1 hb').1
    have ha : recs[k]? = some recs[k] := List.getElem?_eq_getElem (by omega)
    have ha' : recs'[k]? = some recs'[k] := List.getElem?_eq_getElem (by omega)
    obtain ⟨i1, i2, i3⟩ := ih _ _ ha ha' (fun j a hj => hidle j a (by omega))
    obtain ⟨d1, d2⟩ := hidle k _ (by omega) ha
    obtain ⟨s1, s2, s3⟩ := C138_step h hm h' hm' hv hp hcoup htol hlin hperm htol' hlin' hperm' hC hC' hU k k _ b _ b' ha hb ha' hb' i1
      (fun i hi => (i2 i hi).1) d1 d2
    refine ⟨s1, fun i hi => ⟨(s2 i hi).1, fun hon => ?_⟩, ?_⟩
    · have := (s2 i hi).2 hon
      rw [(i2 i hi).2 hon] at this
      linarith
    · rw [i3] at s3
      linarith

/-- C138: fibers which do not connect the plates at some record did not at any earlier one. -/
theorem C138_earlier (h : solve mat mesh lmin lmax coupling o perm = .ok (S, recs, stop)) (hm : GoodMat mat)
    (hp : PositiveLengths mesh.rows lmin lmax) (htol : 0 ≤ o.tol) (hlin : ExactLin o.lin) (hperm : PermOf S.n perm)
    (k m : ℕ) (hkm : k ≤ m) (a b : Rec K) (ha : recs[k]? = some a) (hb : recs[m]? = some b)
    (hidle : Idle U mat mesh.rows o.tol b.Z b.x) : Idle U mat mesh.rows o.tol a.Z a.x := by
  obtain ⟨-, h1, h2⟩ := C135_kept h hm hp htol hlin hperm k m hkm a b ha hb
  exact fun i r hr hu hh => hidle i r hr hu ⟨h1 i hh.1, h2 i hh.2⟩

/-- The packing recorded with a plate height. -/
theorem lambda_of (h : solve mat mesh lmin lmax coupling o perm = .ok (S, recs, stop)) (hm : GoodMat mat)
    (hp : PositiveLengths mesh.rows lmin lmax) {k : ℕ} {a : Rec K} (ha : recs[k]? = some a) :
    (k = 0 ∧ a.rlambda = .fin 1) ∨ (0 < k ∧ a.rlambda = .fin S.Z0 / .fin a.Z) := by
  rcases Nat.eq_zero_or_pos k with rfl | hk
  · obtain ⟨-, a0, ha0, -, -, -, hl⟩ := C40_itermax h
    rw [ha] at ha0; cases ha0
    exact Or.inl ⟨rfl, hl⟩
  · obtain ⟨k, rfl⟩ := Nat.exists_eq_add_of_le hk
    rw [Nat.add_comm] at ha
    right
    refine ⟨hk, ?_⟩
    obtain ⟨Km, cs, hK, hC, -, -⟩ := solve_run h
    obtain ⟨bl, hs, l, has, hpos, hc, rfl, hnK, hn, hnC, hZ, hsd, rfl⟩ := solve_sound h hm hp hK hC
    have hlt := (List.getElem?_eq_some_iff.1 ha).1
    obtain ⟨dx, t, s, hst⟩ := hsd.next (List.getElem?_eq_getElem (by omega)) ha
    exact hst.lam

/-- If one run goes on from a supported state, so does the other one from the same state. -/
theorem goes_on (h : solve mat mesh lmin lmax coupling o perm = .ok (S, recs, stop)) (hm : GoodMat mat)
    (h' : solve mat' mesh lmin lmax coupling o' perm' = .ok (S', recs', stop')) (hm' : GoodMat mat')
    (hv : ValidMesh mesh.frame) (hp : PositiveLengths mesh.rows lmin lmax) (hcoup : |coupling| < 1) (htol : 0 ≤ o.tol)
    (hlin : ExactLin o.lin) (hperm : PermOf S.n perm) (htol' : o'.tol = o.tol) (herr' : 0 ≤ o'.errtol) (hlin' : GoodLin o'.lin)
    (hperm' : PermOf S'.n perm') (hpack : o'.packing = o.packing) (hiter : o'.itermax = o.itermax) (hne : mesh.rows ≠ [])
    (hU : SameBut U mat mat') (hZ0 : S'.Z0 = S.Z0) (k : ℕ) (a b a' : Rec K) (ha : recs[k]? = some a) (hb : recs[k + 1]? = some b)
    (ha' : recs'[k]? = some a') (hZ : a'.Z = a.Z) (hx : ∀ i, i < mesh.rows.length → a'.x (2 * i) = a.x (2 * i))
    (hsup : ¬ Unsupported mat mesh.rows o.tol a.Z a.x) : ∃ b', recs'[k + 1]? = some b' := by
  obtain ⟨Km, cs, hK, hC, -, -⟩ := solve_run h
  obtain ⟨Km', cs', hK', hC', -, -⟩ := solve_run h'
  have hpair : ∀ i j, IsPair mesh.rows i j → i < mesh.rows.length ∧ j < mesh.rows.length := by
    intro i j hij
    obtain ⟨bl, hs, l, has, hpos, hc, -⟩ := solve_sound h hm hp hK hC
    obtain ⟨q, x, hq, rfl, rfl⟩ := hc.ofPair hij
    have := hc.lt x (List.mem_of_getElem? hq)
    omega
  have htl : 0 ≤ o'.tol := by rw [htol']; exact htol
  have hlt := (List.getElem?_eq_some_iff.1 hb).1
  have hlt' := (List.getElem?_eq_some_iff.1 ha').1
  by_contra hnone
  have hlen : recs'.length = k + 1 := by
    by_contra hl
    exact hnone ⟨_, List.getElem?_eq_getElem (show k + 1 < recs'.length by omega)⟩
  have hlast : recs'.getLast? = some a' := by
    rw [List.getLast?_eq_getElem?, hlen]
    exact ha'
  cases stop' with
  | unmodelled => exact C61_modelled h' hm' hp htl hlin'.1 hperm' rfl
  | blocked =>
    obtain ⟨-, ⟨L, hL⟩, -⟩ := C65_lengths hK'
    obtain ⟨c, hc, -, hcase⟩ := C73_blocked h' hm' hv hp hcoup.le hL htl herr' hlin' hperm' hne
    rw [hlast] at hc; cases hc
    rw [htol', hZ] at hcase
    rcases hcase with ⟨i, j, hij, g0, g1, g2⟩ | hf
    · obtain ⟨hi, hj⟩ := hpair i j hij
      obtain ⟨e0, e1, e2⟩ := sameBut_gaps hU (Z := a.Z) hx hi hj
      rw [e0] at g0
      rw [e1] at g1
      rw [e2] at g2
      have := C63_jammed h hm hp hlin hperm k a ha ⟨i, j, hij, g0, g1, g2⟩
      omega
    · exact hsup (sameBut_supported hU hx hpair ((C73_translation hK' hm' hv hp hcoup.le hL (Or.inl hcoup) _ _ _).1 hf))
  | reached =>
    rcases C40_reached h' with h1 | ⟨c, hc, h2⟩
    · have := (C40_itermax h).1
      omega
    · rw [hlast] at hc; cases hc
      have h3 := C40_below h k a ha hlt
      have : a'.rlambda = a.rlambda := by
        rcases lambda_of h hm hp ha with ⟨e1, e2⟩ | ⟨e1, e2⟩ <;> rcases lambda_of h' hm' hp ha' with ⟨f1, f2⟩ | ⟨f1, f2⟩
        · rw [e2, f2]
        · omega
        · omega
        · rw [e2, f2, hZ0, hZ]
      rw [this, hpack, h3] at h2
      cases h2

/-- C138: the whole run.  If the fibers are supported at the start and the fibers of `U` do not connect the plates before the last
recorded step, mats which differ only in the material and width of the fibers of `U` have equally many records, with the same plate heights,
displacements and forces of the plate. -/
theorem C138_run (h : solve mat mesh lmin lmax coupling o perm = .ok (S, recs, stop)) (hm : GoodMat mat)
    (h' : solve mat' mesh lmin lmax coupling o' perm' = .ok (S', recs', stop')) (hm' : GoodMat mat')
    (hv : ValidMesh mesh.frame) (hp : PositiveLengths mesh.rows lmin lmax) (hcoup : |coupling| < 1) (htol : 0 ≤ o.tol)
    (herr : 0 ≤ o.errtol) (hlin : GoodLin o.lin) (hperm : PermOf S.n perm) (htol' : o'.tol = o.tol) (herr' : 0 ≤ o'.errtol)
    (hlin' : GoodLin o'.lin) (hperm' : PermOf S'.n perm') (hpack : o'.packing = o.packing) (hiter : o'.itermax = o.itermax)
    (hne : mesh.rows ≠ []) {cs cs' : ConstraintSys K} (hC : constraint mat mesh = .ok cs) (hC' : constraint mat' mesh = .ok cs')
    (hU : SameBut U mat mat') (hsup : ¬ Unsupported mat mesh.rows o.tol cs.Z (fun _ => 0))
    (hidle : ∀ (k : ℕ) (a : Rec K), k + 2 = recs.length → recs[k]? = some a → Idle U mat mesh.rows o.tol a.Z a.x) :
    recs'.length = recs.length ∧ ∀ (k : ℕ) (b b' : Rec K), recs[k]? = some b → recs'[k]? = some b' →
      b'.Z = b.Z ∧ b'.rlambda = b.rlambda ∧
      (∀ i, i < mesh.rows.length → b'.x (2 * i) = b.x (2 * i) ∧ (OnBeam mesh.rows i → b'.x (2 * i + 1) = b.x (2 * i + 1))) ∧
      totalForce cs'.C (fun j => b'.x (2 * mesh.rows.length + j)) 2 = totalForce cs.C (fun j => b.x (2 * mesh.rows.length + j)) 2 := by
  obtain ⟨Km, cs1, hK, hC1, hS1, -⟩ := solve_run h
  rw [hC] at hC1; cases hC1
  have hpair : ∀ i j, IsPair mesh.rows i j → i < mesh.rows.length ∧ j < mesh.rows.length := by
    intro i j hij
    obtain ⟨bl, hs, l, has, hpos, hc, -⟩ := solve_sound h hm hp hK hC
    obtain ⟨q, x, hq, rfl, rfl⟩ := hc.ofPair hij
    have := hc.lt x (List.mem_of_getElem? hq)
    omega
  have htl : 0 ≤ o'.tol := by rw [htol']; exact htol
  obtain ⟨-, a0, ha0, hx0, -, hZ0, -⟩ := C40_itermax h
  obtain ⟨-, a0', ha0', hx0', -, hZ0', -⟩ := C40_itermax h'
  have hs0 : ¬ Unsupported mat mesh.rows o.tol a0.Z a0.x := by
    have e : a0.x = fun _ => 0 := funext hx0
    have : S.Z0 = cs.Z := by rw [hS1]; rfl
    rw [e, hZ0, this]
    exact hsup
  have hsupp : ∀ (k : ℕ) (a : Rec K), recs[k]? = some a → ¬ Unsupported mat mesh.rows o.tol a.Z a.x := fun k a ha =>
    C77_supported h hm hp htol hlin.1 hperm 0 k (Nat.zero_le k) a0 a ha0 ha hs0
  have hid : ∀ (k : ℕ) (a : Rec K), k + 1 < recs.length → recs[k]? = some a → Idle U mat mesh.rows o.tol a.Z a.x := by
    intro k a hk ha
    have hl : recs[recs.length - 2]? = some (recs[recs.length - 2]'(by omega)) := List.getElem?_eq_getElem (by omega)
    exact C138_earlier h hm hp htol hlin.1 hperm k (recs.length - 2) (by omega) a _ ha hl (hidle _ _ (by omega) hl)
  have hsame : ∀ k b b', recs[k]? = some b → recs'[k]? = some b' → _ := fun k b b' hb hb' =>
    C138_same h hm h' hm' hv hp hcoup htol hlin.1 hperm htol' hlin'.1 hperm' hC hC' hU k b b' hb hb' (fun j a hj ha =>
      ⟨hid j a (by have := (List.getElem?_eq_some_iff.1 hb).1; omega) ha, hsupp j a ha⟩)
  have hZZ : S'.Z0 = S.Z0 := by
    have := (hsame 0 a0 a0' ha0 ha0').1
    rwa [hZ0, hZ0'] at this
  have hboth : ∀ k, k < recs.length ↔ k < recs'.length := by
    intro k
    induction k with
    | zero =>
      have h1 := (List.getElem?_eq_some_iff.1 ha0).1
      have h2 := (List.getElem?_eq_some_iff.1 ha0').1
      exact ⟨fun _ => h2, fun _ => h1⟩
    | succ k ih =>
      constructor
      · intro hk
        have hk' := ih.1 (by omega)
        have ha := List.getElem?_eq_getElem (show k < recs.length by omega)
        have ha' := List.getElem?_eq_getElem hk'
        obtain ⟨e1, e2, -⟩ := hsame k _ _ ha ha'
        obtain ⟨b', hb'⟩ := goes_on h hm h' hm' hv hp hcoup htol hlin.1 hperm htol' herr' hlin' hperm' hpack hiter hne hU hZZ k _ _ _ ha
          (List.getElem?_eq_getElem hk) ha' e1 (fun i hi => (e2 i hi).1) (hsupp k _ ha)
        exact (List.getElem?_eq_some_iff.1 hb').1
      · intro hk
        have hk' := ih.2 (by omega)
        have ha' := List.getElem?_eq_getElem (show k < recs'.length by omega)
        have ha := List.getElem?_eq_getElem hk'
        obtain ⟨e1, e2, -⟩ := hsame k _ _ ha ha'
        have hx : ∀ i, i < mesh.rows.length → recs[k].x (2 * i) = recs'[k].x (2 * i) := fun i hi => ((e2 i hi).1).symm
        obtain ⟨b, hb⟩ := goes_on h' hm' h hm hv hp hcoup htl hlin'.1 hperm' htol'.symm herr hlin hperm hpack.symm hiter.symm hne
          (sameBut_symm hU) hZZ.symm k _ _ _ ha' (List.getElem?_eq_getElem hk) ha e1.symm hx
          (fun hun => hsupp k _ ha (by
            rw [htol', e1] at hun
            exact sameBut_supported hU (fun i hi => (hx i hi).symm) hpair hun))
        exact (List.getElem?_eq_some_iff.1 hb).1
  refine ⟨?_, ?_⟩
  · have h1 := (hboth recs.length).not
    have h2 := (hboth recs'.length).not
    simp only [lt_irrefl, not_false_eq_true, true_iff, iff_true, not_lt] at h1 h2
    omega
  · intro k b b' hb hb'
    obtain ⟨e1, e2, e3⟩ := hsame k b b' hb hb'
    refine ⟨e1, ?_, e2, e3⟩
    rcases lambda_of h hm hp hb with ⟨i1, i2⟩ | ⟨i1, i2⟩ <;> rcases lambda_of h' hm' hp hb' with ⟨f1, f2⟩ | ⟨f1, f2⟩
    · rw [i2, f2]
    · omega
    · omega
    · rw [i2, f2, hZZ, e1]

end Fibermat
