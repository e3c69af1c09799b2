import Verif.Spec.Diagram
import Verif.Props.Broken

/-! # C129: shear force and bending moment along the fibers -/

set_option linter.unusedSectionVars false

namespace Fibermat
variable {K : Type} [Field K] [LinearOrder K] [IsStrictOrderedRing K]
open Spec

variable {mat : Mat K} {mesh : Mesh K} {lmin lmax : Option K} {coupling : K} {o : Opts K} {perm : Option (List ℕ)}
  {S : Sys K} {recs : List (Rec K)} {stop : Stop}

/-- Forces (`d = 0`) and moments (`d = 1`) of the beams on a node. -/
theorem beam_row {rows : List (MeshRow K)} {c : K} {Km : Coo (Cell K)} {bl : List (Beam K × K)} (has : Assembled mat rows c Km bl) (v : ℕ → K)
    {i : ℕ} (hi : i < rows.length) :
    ∑ s ∈ Finset.range (2 * rows.length), table rows c bl (2 * i) s * v s =
      (bl.map (fun p => (if p.1.i = i then stiff0 p.1.fiber p.2 * (v (2 * p.1.i) - v (2 * p.1.j) + c * p.2 * (v (2 * p.1.i + 1) + v (2 * p.1.j + 1)) / 2) else 0) +
        (if p.1.j = i then - (stiff0 p.1.fiber p.2 * (v (2 * p.1.i) - v (2 * p.1.j) + c * p.2 * (v (2 * p.1.i + 1) + v (2 * p.1.j + 1)) / 2)) else 0))).sum ∧
    ∑ s ∈ Finset.range (2 * rows.length), table rows c bl (2 * i + 1) s * v s =
      (bl.map (fun p => (if p.1.i = i then stiff0 p.1.fiber p.2 * p.2 / 2 * c * (v (2 * p.1.i) - v (2 * p.1.j)) + stiff2 p.1.fiber p.2 * v (2 * p.1.i + 1) -
          (stiff2 p.1.fiber p.2 - stiff0 p.1.fiber p.2 * (p.2 * p.2) / 2) * v (2 * p.1.j + 1) else 0) +
        (if p.1.j = i then stiff0 p.1.fiber p.2 * p.2 / 2 * c * (v (2 * p.1.i) - v (2 * p.1.j)) - (stiff2 p.1.fiber p.2 - stiff0 p.1.fiber p.2 * (p.2 * p.2) / 2) * v (2 * p.1.i + 1) +
          stiff2 p.1.fiber p.2 * v (2 * p.1.j + 1) else 0))).sum := by
  have e1 : ∀ a : ℕ, (2 * a = 2 * i) ↔ (a = i) := fun a => by omega
  have e2 : ∀ a : ℕ, ¬ (2 * a + 1 = 2 * i) := fun a => by omega
  have e3 : ∀ a : ℕ, ¬ (2 * a = 2 * i + 1) := fun a => by omega
  have e4 : ∀ a : ℕ, (2 * a + 1 = 2 * i + 1) ↔ (a = i) := fun a => by omega
  constructor
  · have h := has.bilin (fun k => if k = 2 * i then 1 else 0) v
    rw [Finset.sum_eq_single (2 * i)] at h
    · simp only [if_true, one_mul] at h
      rw [h]
      congr 1
      apply List.map_congr_left
      intro p hpm
      refine (beam_bilin _ _ _ _ _ _ (fun k => if k = 2 * i then 1 else 0) v).trans ?_
      simp only [e1, e2, if_false, zero_mul, add_zero]
      split_ifs <;> ring
    · intro r _ hr
      apply Finset.sum_eq_zero
      intro s _
      simp [hr]
    · intro hn
      exact absurd (Finset.mem_range.2 (by omega)) hn
  · have h := has.bilin (fun k => if k = 2 * i + 1 then 1 else 0) v
    rw [Finset.sum_eq_single (2 * i + 1)] at h
    · simp only [if_true, one_mul] at h
      rw [h]
      congr 1
      apply List.map_congr_left
      intro p hpm
      refine (beam_bilin _ _ _ _ _ _ (fun k => if k = 2 * i + 1 then 1 else 0) v).trans ?_
      simp only [e3, e4, if_false, zero_mul, zero_add, add_zero]
      split_ifs <;> ring
    · intro r _ hr
      apply Finset.sum_eq_zero
      intro s _
      simp [hr]
    · intro hn
      exact absurd (Finset.mem_range.2 (by omega)) hn

open Classical in
/-- A sum over the beams at a node has the term of the beam after it and the term of the beam before it. -/
theorem node_sum {c : K} {Km : Coo (Cell K)} {bl : List (Beam K × K)} (has : Assembled mat mesh.rows c Km bl) (hv : ValidMesh mesh.frame) {i : ℕ}
    {A B : Beam K × K → K} {g h : ℕ → K} (hA : ∀ p ∈ bl, p.1.i = i → A p = g p.1.i) (hB : ∀ p ∈ bl, p.1.j = i → B p = h p.1.i) :
    (bl.map (fun p => (if p.1.i = i then A p else 0) + (if p.1.j = i then B p else 0))).sum =
      (if SameFiber mesh.rows i (i + 1) then g i else 0) + (match i with | 0 => 0 | i + 1 => if SameFiber mesh.rows i (i + 1) then h i else 0) := by
  have hbeams : BeamsCyclic mesh.rows := by have := hv.beams; rwa [rows_meshFrame] at this
  have hat : ∀ p ∈ bl, p.1.j = p.1.i + 1 ∧ SameFiber mesh.rows p.1.i (p.1.i + 1) := by
    intro p hpm
    obtain ⟨r1, q1, h1, h2, h3, -, -, h6⟩ := (has.beam p hpm).rows
    obtain ⟨hj, q', hq', hfq⟩ := beam_next hbeams h1 h3 (has.beam p hpm).lt
    rw [h2] at hq'; cases hq'
    exact ⟨hj, ⟨r1, q1, h1, by rw [← hj]; exact h2, hfq.symm⟩⟩
  rw [List.sum_map_add]
  congr 1
  · by_cases hsf : SameFiber mesh.rows i (i + 1)
    · obtain ⟨p, hpm, hpi⟩ := has.all i ((C34_beams hv i (i + 1)).2 ⟨rfl, hsf⟩).1
      rw [sum_map_unique (key := fun p => p.1.i) has.nodup hpm hpi, hA p hpm hpi, hpi, if_pos hsf]
    · rw [sum_map_none (key := fun p : Beam K × K => p.1.i), if_neg hsf]
      rintro p hpm rfl
      exact hsf (hat p hpm).2
  · cases i with
    | zero =>
      rw [sum_map_none (key := fun p : Beam K × K => p.1.j)]
      intro p hpm h0
      have := (hat p hpm).1
      omega
    | succ i =>
      simp only
      have hnd : (bl.map (fun p => p.1.j)).Nodup := by
        have : bl.map (fun p => p.1.j) = (bl.map (fun p => p.1.i)).map (· + 1) := by
          rw [List.map_map]
          exact List.map_congr_left (fun p hpm => (hat p hpm).1)
        rw [this]
        exact has.nodup.map (fun _ _ h => Nat.succ.inj h)
      by_cases hsf : SameFiber mesh.rows i (i + 1)
      · obtain ⟨p, hpm, hpi⟩ := has.all i ((C34_beams hv i (i + 1)).2 ⟨rfl, hsf⟩).1
        have hpj : p.1.j = i + 1 := by rw [(hat p hpm).1, hpi]
        rw [sum_map_unique (key := fun p => p.1.j) hnd hpm hpj, hB p hpm hpj, hpi, if_pos hsf]
      · rw [sum_map_none (key := fun p : Beam K × K => p.1.j), if_neg hsf]
        intro p hpm h2
        have h3 := hat p hpm
        have h4 : p.1.i = i := by omega
        rw [h4] at h3
        exact hsf h3.2

/-- The beams at a node are those of its fiber. -/
theorem beam_at {c : K} {Km : Coo (Cell K)} {bl : List (Beam K × K)} (has : Assembled mat mesh.rows c Km bl) (hv : ValidMesh mesh.frame) {i : ℕ}
    {f : Fiber K} (hf : nodeFiber mat mesh.rows i = some f) {p : Beam K × K} (hpm : p ∈ bl) (hend : p.1.i = i ∨ p.1.j = i) :
    p.1.fiber = f ∧ p.1.j = p.1.i + 1 := by
  have hbeams : BeamsCyclic mesh.rows := by have := hv.beams; rwa [rows_meshFrame] at this
  unfold nodeFiber at hf
  obtain ⟨r, hr, hfr⟩ := Option.bind_eq_some_iff.1 hf
  obtain ⟨r1, q1, h1, h2, h3, -, -, h6⟩ := (has.beam p hpm).rows
  obtain ⟨hj, q', hq', hfq⟩ := beam_next hbeams h1 h3 (has.beam p hpm).lt
  rw [h2] at hq'; cases hq'
  refine ⟨?_, hj⟩
  rcases hend with rfl | rfl
  · rw [h1] at hr; cases hr
    rw [h6] at hfr; exact Option.some.inj hfr
  · rw [h2] at hr; cases hr
    rw [← hfq] at h6
    rw [h6] at hfr; exact Option.some.inj hfr

open Classical in
/-- The contact force on a node is the jump of the shear force. -/
theorem C129_force (h : solve mat mesh lmin lmax coupling o perm = .ok (S, recs, stop)) (hm : GoodMat mat)
    (hv : ValidMesh mesh.frame) (hp : PositiveLengths mesh.rows lmin lmax) (htol : 0 ≤ o.tol) (hlin : ExactLin o.lin)
    (hperm : PermOf S.n perm) {cs : ConstraintSys K} (hC : constraint mat mesh = .ok cs)
    {L : ℕ → K} (hL : BeamLengths mesh.rows lmin lmax L) (k : ℕ) (a : Rec K) (ha : recs[k]? = some a)
    {i : ℕ} {f : Fiber K} (hf : nodeFiber mat mesh.rows i = some f) :
    contactForce cs.C (fun j => a.x (2 * mesh.rows.length + j)) i =
      shearBefore f mesh.rows L coupling a.x i - shearAfter f mesh.rows L coupling a.x i := by
  obtain ⟨Km, bl, hs, l, has, hpos, hbl, hc, rfl, hN, hnK, hn, hnC, hcols, hZ0, hsd, rfl⟩ := solve_lengths h hm hp hC
  have hL' := (hbl L).1 hL
  have hi : i < mesh.rows.length := by
    unfold nodeFiber at hf
    obtain ⟨r, hr, -⟩ := Option.bind_eq_some_iff.1 hf
    exact (List.getElem?_eq_some_iff.1 hr).1
  have hbal := hsd.balance_exact (o := { o with perm := perm.getD (List.range (assemble Km cs).n) }) hlin (permOf_getD hperm) htol (r := 2 * i)
    (by rw [hnK]; omega) (by rintro ⟨p, -, -, h1 | h1⟩ <;> omega) ha
  set G : ℕ → K := fun i => beamShear f (L i) coupling (a.x (2 * i)) (a.x (2 * i + 1)) (a.x (2 * (i + 1))) (a.x (2 * (i + 1) + 1)) with hG
  have hkey : ∀ p ∈ bl, p.1.i = i ∨ p.1.j = i →
      stiff0 p.1.fiber p.2 * (a.x (2 * p.1.i) - a.x (2 * p.1.j) + coupling * p.2 * (a.x (2 * p.1.i + 1) + a.x (2 * p.1.j + 1)) / 2) = - G p.1.i := by
    intro p hpm hend
    obtain ⟨h1, h2⟩ := beam_at has hv hf hpm hend
    rw [stiff0_eq (has.solid hm p hpm) (hpos p hpm), h1, h2, hL' p hpm, hG]
    simp only [beamShear]
    ring
  rw [apply_force hn _ (by omega), (beam_row has a.x hi).1,
    node_sum has hv (g := fun i => - G i) (h := G) (fun p hpm hpi => hkey p hpm (Or.inl hpi)) (fun p hpm hpj => by rw [hkey p hpm (Or.inr hpj), neg_neg])] at hbal
  have hforce : contactForce cs.C (fun j => a.x (2 * mesh.rows.length + j)) i =
      - ∑ j ∈ Finset.range (3 * l.length), cs.C.get j (2 * i) * a.x (2 * mesh.rows.length + j) := by
    unfold contactForce
    rw [hnC]
  rw [hforce]
  have hafter : ∀ i, shearAfter f mesh.rows L coupling a.x i = if SameFiber mesh.rows i (i + 1) then G i else 0 := fun i => rfl
  have hneg : (if SameFiber mesh.rows i (i + 1) then - G i else 0) = - shearAfter f mesh.rows L coupling a.x i := by
    rw [hafter]
    by_cases hsf : SameFiber mesh.rows i (i + 1)
    · rw [if_pos hsf, if_pos hsf]
    · rw [if_neg hsf, if_neg hsf, neg_zero]
  rw [hneg] at hbal
  cases i with
  | zero =>
    change - _ + (0 : K) + _ = 0 at hbal
    show _ = 0 - _
    linarith
  | succ i =>
    change - _ + shearAfter f mesh.rows L coupling a.x i + _ = 0 at hbal
    show _ = shearAfter f mesh.rows L coupling a.x i - _
    linarith

open Classical in
/-- The bending moment of a fiber of finite tensile modulus passes continuously through the nodes, and vanishes at its ends. -/
theorem C129_moment (h : solve mat mesh lmin lmax 1 o perm = .ok (S, recs, stop)) (hm : GoodMat mat)
    (hv : ValidMesh mesh.frame) (hp : PositiveLengths mesh.rows lmin lmax) (htol : 0 ≤ o.tol) (hlin : ExactLin o.lin)
    (hperm : PermOf S.n perm)
    {L : ℕ → K} (hL : BeamLengths mesh.rows lmin lmax L) (k : ℕ) (a : Rec K) (ha : recs[k]? = some a)
    {i : ℕ} {f : Fiber K} (hf : nodeFiber mat mesh.rows i = some f) {E : K} (hE : f.E = some E) :
    momentBefore f E mesh.rows L a.x i = momentAfter f E mesh.rows L a.x i := by
  obtain ⟨Km, cs, -, hC, -, -⟩ := solve_run h
  obtain ⟨Km, bl, hs, l, has, hpos, hbl, hc, rfl, hN, hnK, hn, hnC, hcols, hZ0, hsd, rfl⟩ := solve_lengths h hm hp hC
  have hL' := (hbl L).1 hL
  have hi : i < mesh.rows.length := by
    unfold nodeFiber at hf
    obtain ⟨r, hr, -⟩ := Option.bind_eq_some_iff.1 hf
    exact (List.getElem?_eq_some_iff.1 hr).1
  have hbal := hsd.balance_exact (o := { o with perm := perm.getD (List.range (assemble Km cs).n) }) hlin (permOf_getD hperm) htol (r := 2 * i + 1)
    (by rw [hnK]; omega) (by
      rintro ⟨p, hpm, hEp, h1⟩
      have := (beam_at has hv hf hpm (by omega)).1
      rw [this, hE] at hEp
      cases hEp) ha
  rw [apply_force hn _ (by omega), (beam_row has a.x hi).2,
    Finset.sum_eq_zero (fun j hj => by rw [hc.odd (by rw [hnC]; exact Finset.mem_range.1 hj) hi, zero_mul]), add_zero,
    node_sum has hv (g := fun i => - (beamMoment f E (L i) (a.x (2 * i + 1)) (a.x (2 * (i + 1) + 1)) +
        beamShear f (L i) 1 (a.x (2 * i)) (a.x (2 * i + 1)) (a.x (2 * (i + 1))) (a.x (2 * (i + 1) + 1)) * (L i / 2)))
      (h := fun i => beamMoment f E (L i) (a.x (2 * i + 1)) (a.x (2 * (i + 1) + 1)) -
        beamShear f (L i) 1 (a.x (2 * i)) (a.x (2 * i + 1)) (a.x (2 * (i + 1))) (a.x (2 * (i + 1) + 1)) * (L i / 2))] at hbal
  · have hneg : (if SameFiber mesh.rows i (i + 1) then - (beamMoment f E (L i) (a.x (2 * i + 1)) (a.x (2 * (i + 1) + 1)) +
        beamShear f (L i) 1 (a.x (2 * i)) (a.x (2 * i + 1)) (a.x (2 * (i + 1))) (a.x (2 * (i + 1) + 1)) * (L i / 2)) else 0) = - momentAfter f E mesh.rows L a.x i := by
      unfold momentAfter shearAfter
      by_cases hsf : SameFiber mesh.rows i (i + 1)
      · rw [if_pos hsf, if_pos hsf, if_pos hsf]
      · rw [if_neg hsf, if_neg hsf, neg_zero]
    rw [hneg] at hbal
    cases i with
    | zero =>
      change - _ + (0 : K) = 0 at hbal
      show 0 = _
      linarith
    | succ i =>
      change - _ + (if SameFiber mesh.rows i (i + 1) then _ else 0) = 0 at hbal
      show (if SameFiber mesh.rows i (i + 1) then beamMoment f E (L i) (a.x (2 * i + 1)) (a.x (2 * (i + 1) + 1)) - shearAfter f mesh.rows L 1 a.x i * (L i / 2) else 0) = _
      unfold shearAfter
      by_cases hsf : SameFiber mesh.rows i (i + 1)
      · rw [if_pos hsf] at hbal
        rw [if_pos hsf, if_pos hsf]
        linarith
      · rw [if_neg hsf] at hbal
        rw [if_neg hsf]
        linarith
  · intro p hpm hpi
    obtain ⟨h1, h2⟩ := beam_at has hv hf hpm (Or.inl hpi)
    have hst := stiff0_eq (has.solid hm p hpm) (hpos p hpm)
    unfold stiff2
    rw [hst, h1, h2, hL' p hpm]
    simp only [beamShear, beamMoment, tensile, hE]
    ring
  · intro p hpm hpi
    obtain ⟨h1, h2⟩ := beam_at has hv hf hpm (Or.inr hpi)
    have hst := stiff0_eq (has.solid hm p hpm) (hpos p hpm)
    unfold stiff2
    rw [hst, h1, h2, hL' p hpm]
    simp only [beamShear, beamMoment, tensile, hE]
    ring

/-- A node that touches nothing does not change the shear force. -/
theorem C129_untouched (h : solve mat mesh lmin lmax coupling o perm = .ok (S, recs, stop)) (hm : GoodMat mat)
    (hv : ValidMesh mesh.frame) (hp : PositiveLengths mesh.rows lmin lmax) (htol : 0 ≤ o.tol) (hlin : ExactLin o.lin)
    (hperm : PermOf S.n perm) {L : ℕ → K} (hL : BeamLengths mesh.rows lmin lmax L) (k : ℕ) (a : Rec K) (ha : recs[k]? = some a)
    {i : ℕ} {f : Fiber K} (hf : nodeFiber mat mesh.rows i = some f) (hu : Untouched mat mesh.rows o.tol a.Z a.x i) :
    shearBefore f mesh.rows L coupling a.x i = shearAfter f mesh.rows L coupling a.x i := by
  obtain ⟨Km, cs, -, hC, -, -⟩ := solve_run h
  have hi : i < mesh.rows.length := by
    unfold nodeFiber at hf
    obtain ⟨r, hr, -⟩ := Option.bind_eq_some_iff.1 hf
    exact (List.getElem?_eq_some_iff.1 hr).1
  have h1 := C129_force h hm hv hp htol hlin hperm hC hL k a ha hf
  rw [untouched_force h hm hv hp hlin hperm hC k a ha hi hu] at h1
  linarith

/-- Nodes of a valid mesh with true beam lengths. -/
theorem trueLengths {Km : Coo (Cell K)} (h : stiffness mat mesh none none coupling = .ok Km) (hv : ValidMesh mesh.frame) (hp : PositiveLengths mesh.rows none none)
    {L : ℕ → K} (hL : BeamLengths mesh.rows none none L) {m : ℕ} (hs : SameFiber mesh.rows m (m + 1)) :
    L m = abscissa mesh.rows (m + 1) - abscissa mesh.rows m ∧ 0 < L m := by
  obtain ⟨-, -, -, hraw⟩ := C65_lengths h
  obtain ⟨h3, h4⟩ := (C34_beams hv m (m + 1)).2 ⟨rfl, hs⟩
  have h5 := hp.raw rfl m h3
  rw [hraw rfl rfl L hL m h3]
  refine ⟨?_, h5⟩
  unfold beamLength
  rw [h4]

open Classical in
/-- Shear force and bending moment from the contact forces on one side: the fiber is statically determinate once the contact forces are known. -/
theorem C129_statics (h : solve mat mesh none none 1 o perm = .ok (S, recs, stop)) (hm : GoodMat mat)
    (hv : ValidMesh mesh.frame) (hp : PositiveLengths mesh.rows none none) (htol : 0 ≤ o.tol) (hlin : ExactLin o.lin)
    (hperm : PermOf S.n perm) {cs : ConstraintSys K} (hC : constraint mat mesh = .ok cs)
    {L : ℕ → K} (hL : BeamLengths mesh.rows none none L) (k : ℕ) (a : Rec K) (ha : recs[k]? = some a)
    {i₀ i : ℕ} {f : Fiber K} (hf : nodeFiber mat mesh.rows i = some f) (h0 : FirstOnFiber mesh.rows i₀) (hle : i₀ ≤ i) (hs : SameFiber mesh.rows i₀ i) :
    shearAfter f mesh.rows L 1 a.x i = - ∑ m ∈ Finset.Icc i₀ i, contactForce cs.C (fun j => a.x (2 * mesh.rows.length + j)) m ∧
    ∀ E, f.E = some E → momentBefore f E mesh.rows L a.x i =
      ∑ m ∈ Finset.Ico i₀ i, contactForce cs.C (fun j => a.x (2 * mesh.rows.length + j)) m * (abscissa mesh.rows i - abscissa mesh.rows m) := by
  obtain ⟨Km, -, hK, -, -, -⟩ := solve_run h
  set F : ℕ → K := fun m => contactForce cs.C (fun j => a.x (2 * mesh.rows.length + j)) m with hF
  have hfirst : i₀ = 0 ∨ ∃ x, i₀ = x + 1 ∧ ¬ SameFiber mesh.rows x (x + 1) := by
    rcases Nat.eq_zero_or_pos i₀ with h1 | h1
    · exact Or.inl h1
    · obtain ⟨x, rfl⟩ := Nat.exists_eq_add_of_lt h1
      refine Or.inr ⟨x, by omega, ?_⟩
      rintro ⟨r, q, hr, hq, hrq⟩
      obtain ⟨r', hr', hno⟩ := h0
      rw [show 0 + x + 1 = x + 1 by ring, hq] at hr'
      cases hr'
      exact hno x r (by omega) hr hrq
  have hV0 : shearBefore f mesh.rows L 1 a.x i₀ = 0 := by
    rcases hfirst with rfl | ⟨x, rfl, hx⟩
    · rfl
    · show shearAfter f mesh.rows L 1 a.x x = 0
      unfold shearAfter
      rw [if_neg hx]
  have hM0 : ∀ E, momentBefore f E mesh.rows L a.x i₀ = 0 := by
    intro E
    rcases hfirst with rfl | ⟨x, rfl, hx⟩
    · rfl
    · show (if SameFiber mesh.rows x (x + 1) then _ else (0 : K)) = 0
      rw [if_neg hx]
  have hfib : ∀ m, i₀ ≤ m → m ≤ i → nodeFiber mat mesh.rows m = some f := by
    intro m h1 h2
    obtain ⟨r, q, hr, hq, hrq⟩ := sameFiber_between hv hs h1 h2
    obtain ⟨r', q', hr', hq', hrq'⟩ := hs
    rw [hr] at hr'; cases hr'
    unfold nodeFiber at hf ⊢
    rw [hq'] at hf
    rw [hq]
    simpa [← hrq, hrq'] using hf
  have hnext : ∀ m, i₀ ≤ m → m + 1 ≤ i → SameFiber mesh.rows m (m + 1) := by
    intro m h1 h2
    obtain ⟨r, q, hr, hq, hrq⟩ := sameFiber_between hv hs h1 (by omega : m ≤ i)
    obtain ⟨r', q', hr', hq', hrq'⟩ := sameFiber_between hv hs (by omega : i₀ ≤ m + 1) h2
    rw [hr] at hr'; cases hr'
    exact ⟨q, q', hq, hq', by rw [← hrq, hrq']⟩
  have hshear : ∀ d, i₀ + d ≤ i → shearAfter f mesh.rows L 1 a.x (i₀ + d) = - ∑ m ∈ Finset.Icc i₀ (i₀ + d), F m := by
    intro d
    induction d with
    | zero =>
      intro _
      have h1 := C129_force h hm hv hp htol hlin hperm hC hL k a ha (hfib i₀ le_rfl hle)
      rw [hV0] at h1
      rw [add_zero, Finset.Icc_self, Finset.sum_singleton, hF]
      simp only
      linarith
    | succ d ih =>
      intro hd
      have h1 := C129_force h hm hv hp htol hlin hperm hC hL k a ha (hfib (i₀ + d + 1) (by omega) (by omega))
      change F (i₀ + d + 1) = shearAfter f mesh.rows L 1 a.x (i₀ + d) - _ at h1
      rw [ih (by omega)] at h1
      rw [show i₀ + (d + 1) = i₀ + d + 1 by ring, ← Finset.Ico_insert_right (by omega : i₀ ≤ i₀ + d + 1), Finset.sum_insert (by simp), Finset.Ico_add_one_right_eq_Icc]
      linarith
  obtain ⟨d, rfl⟩ := Nat.exists_eq_add_of_le hle
  refine ⟨hshear d le_rfl, ?_⟩
  intro E hE
  have hmom : ∀ e, i₀ + e ≤ i₀ + d → momentBefore f E mesh.rows L a.x (i₀ + e) = ∑ m ∈ Finset.Ico i₀ (i₀ + e), F m * (abscissa mesh.rows (i₀ + e) - abscissa mesh.rows m) := by
    intro e
    induction e with
    | zero =>
      intro _
      rw [add_zero, Finset.Ico_self, Finset.sum_empty]
      exact hM0 E
    | succ e ih =>
      intro he
      have h1 := C129_moment h hm hv hp htol hlin hperm hL k a ha (hfib (i₀ + e) (by omega) (by omega)) hE
      rw [ih (by omega)] at h1
      have hn := hnext (i₀ + e) (by omega) (by omega)
      obtain ⟨hl, -⟩ := trueLengths hK hv hp hL hn
      have hsh := hshear e (by omega)
      rw [show i₀ + (e + 1) = i₀ + e + 1 by ring]
      show (if SameFiber mesh.rows (i₀ + e) (i₀ + e + 1) then _ else (0 : K)) = _
      unfold momentAfter at h1
      rw [if_pos hn] at h1 ⊢
      rw [hsh] at h1 ⊢
      rw [hl] at h1 ⊢
      rw [Finset.sum_Ico_succ_top (by omega : i₀ ≤ i₀ + e)]
      have h2 : ∑ m ∈ Finset.Ico i₀ (i₀ + e), F m * (abscissa mesh.rows (i₀ + e + 1) - abscissa mesh.rows m) =
          ∑ m ∈ Finset.Ico i₀ (i₀ + e), F m * (abscissa mesh.rows (i₀ + e) - abscissa mesh.rows m) +
            (∑ m ∈ Finset.Ico i₀ (i₀ + e), F m) * (abscissa mesh.rows (i₀ + e + 1) - abscissa mesh.rows (i₀ + e)) := by
        rw [Finset.sum_mul, ← Finset.sum_add_distrib]
        exact Finset.sum_congr rfl (fun m _ => by ring)
      rw [h2, h1]
      rw [← Finset.Ico_insert_right (by omega : i₀ ≤ i₀ + e), Finset.sum_insert (by simp)]
      ring
  exact hmom d le_rfl

open Classical in
/-- A hanging part of a fiber of finite tensile modulus is displaced like a rigid rod. -/
theorem C129_hanging (h : solve mat mesh none none 1 o perm = .ok (S, recs, stop)) (hm : GoodMat mat)
    (hv : ValidMesh mesh.frame) (hp : PositiveLengths mesh.rows none none) (htol : 0 ≤ o.tol) (hlin : ExactLin o.lin)
    (hperm : PermOf S.n perm) (k : ℕ) (a : Rec K) (ha : recs[k]? = some a)
    {i m : ℕ} {f : Fiber K} (hf : nodeFiber mat mesh.rows i = some f) {E : K} (hE : f.E = some E) (him : SameFiber mesh.rows i m)
    (hu : (i ≤ m ∧ ∀ m', i < m' → SameFiber mesh.rows i m' → Untouched mat mesh.rows o.tol a.Z a.x m') ∨
      (m ≤ i ∧ ∀ m', m' < i → SameFiber mesh.rows i m' → Untouched mat mesh.rows o.tol a.Z a.x m')) :
    a.x (2 * m + 1) = a.x (2 * i + 1) ∧ a.x (2 * m) = a.x (2 * i) + a.x (2 * i + 1) * (abscissa mesh.rows m - abscissa mesh.rows i) := by
  obtain ⟨Km, cs, hK, hC, -, -⟩ := solve_run h
  obtain ⟨-, ⟨L, hL⟩, -, -⟩ := C65_lengths hK
  have htr : ∀ {x y z : ℕ}, SameFiber mesh.rows x y → SameFiber mesh.rows y z → SameFiber mesh.rows x z := by
    rintro x y z ⟨r, q, hr, hq, h1⟩ ⟨r', q', hr', hq', h2⟩
    rw [hq] at hr'; cases hr'
    exact ⟨r, q', hr, hq', h1.trans h2⟩
  have hsym : ∀ {x y : ℕ}, SameFiber mesh.rows x y → SameFiber mesh.rows y x := by
    rintro x y ⟨r, q, hr, hq, h1⟩
    exact ⟨q, r, hq, hr, h1.symm⟩
  have hfib : ∀ m', SameFiber mesh.rows i m' → nodeFiber mat mesh.rows m' = some f := by
    rintro m' ⟨r, q, hr, hq, hrq⟩
    unfold nodeFiber at hf ⊢
    rw [hr] at hf
    rw [hq]
    simpa [hrq] using hf
  have hsolid : Solid f := by
    unfold nodeFiber at hf
    obtain ⟨r, hr, hfr⟩ := Option.bind_eq_some_iff.1 hf
    obtain ⟨n, -, hS⟩ := hm.size
    exact GoodFiber.solid (hS _ (List.mem_of_getElem? hfr))
  have hEpos : 0 < E := by
    have := hsolid.E
    rw [hE] at this
    exact WithTop.coe_lt_coe.1 this
  -- a beam without shear and moment
  have hrigid : ∀ x, SameFiber mesh.rows x (x + 1) → shearAfter f mesh.rows L 1 a.x x = 0 → momentAfter f E mesh.rows L a.x x = 0 →
      a.x (2 * (x + 1) + 1) = a.x (2 * x + 1) ∧ a.x (2 * (x + 1)) = a.x (2 * x) + a.x (2 * x + 1) * (abscissa mesh.rows (x + 1) - abscissa mesh.rows x) := by
    intro x hs hV hM
    obtain ⟨hl, hlp⟩ := trueLengths hK hv hp hL hs
    unfold momentAfter at hM
    rw [if_pos hs, hV, zero_mul, add_zero] at hM
    unfold shearAfter at hV
    rw [if_pos hs] at hV
    have ht : 0 < transverse f (L x) := by
      rw [← stiff0_eq hsolid hlp]
      exact stiff0_pos hsolid hlp
    unfold beamShear at hV
    unfold beamMoment at hM
    have hV' := (mul_eq_zero.1 hV).resolve_left ht.ne'
    have hG := hsolid.G
    have hh := hsolid.h
    have hpos : 0 < transverse f (L x) * (L x ^ 2 / 12 + E / f.G * f.h ^ 2) := by positivity
    have hM' := (mul_eq_zero.1 hM).resolve_left hpos.ne'
    have e1 : a.x (2 * (x + 1) + 1) = a.x (2 * x + 1) := by linarith
    refine ⟨e1, ?_⟩
    rw [e1] at hV'
    rw [← hl]
    linear_combination hV'
  rcases hu with ⟨hle, hu⟩ | ⟨hle, hu⟩
  · have hz : ∀ d x, mesh.rows.length ≤ x + d → i ≤ x → SameFiber mesh.rows i x →
        shearAfter f mesh.rows L 1 a.x x = 0 ∧ momentAfter f E mesh.rows L a.x x = 0 := by
      intro d
      induction d with
      | zero =>
        rintro x hx - ⟨r, q, -, hq, -⟩
        have := (List.getElem?_eq_some_iff.1 hq).1
        omega
      | succ d ih =>
        intro x hx hix hs
        by_cases hn : SameFiber mesh.rows x (x + 1)
        · have hs1 := htr hs hn
          obtain ⟨i1, i2⟩ := ih (x + 1) (by omega) (by omega) hs1
          have h1 := C129_untouched h hm hv hp htol hlin hperm hL k a ha (hfib _ hs1) (hu _ (by omega) hs1)
          have h2 := C129_moment h hm hv hp htol hlin hperm hL k a ha (hfib _ hs1) hE
          rw [i1] at h1
          rw [i2] at h2
          change shearAfter f mesh.rows L 1 a.x x = 0 at h1
          change (if SameFiber mesh.rows x (x + 1) then _ else (0 : K)) = 0 at h2
          refine ⟨h1, ?_⟩
          unfold momentAfter
          rw [if_pos hn] at h2 ⊢
          rw [h1] at h2 ⊢
          linarith
        · unfold momentAfter shearAfter
          rw [if_neg hn, if_neg hn]
          exact ⟨rfl, rfl⟩
    have hall : ∀ d, i + d ≤ m → a.x (2 * (i + d) + 1) = a.x (2 * i + 1) ∧
        a.x (2 * (i + d)) = a.x (2 * i) + a.x (2 * i + 1) * (abscissa mesh.rows (i + d) - abscissa mesh.rows i) := by
      intro d
      induction d with
      | zero => intro _; simp
      | succ d ih =>
        intro hd
        have s1 := sameFiber_between hv him (by omega : i ≤ i + d) (by omega)
        have s2 := sameFiber_between hv him (by omega : i ≤ i + d + 1) (by omega)
        obtain ⟨z1, z2⟩ := hz mesh.rows.length (i + d) (by omega) (by omega) s1
        obtain ⟨r1, r2⟩ := hrigid (i + d) (htr (hsym s1) s2) z1 z2
        obtain ⟨t1, t2⟩ := ih (by omega)
        rw [show i + (d + 1) = i + d + 1 by ring]
        refine ⟨r1.trans t1, ?_⟩
        rw [r2, t1, t2]
        ring
    obtain ⟨d, rfl⟩ := Nat.exists_eq_add_of_le hle
    exact hall d le_rfl
  · have hz : ∀ x, x < i → SameFiber mesh.rows i x → shearAfter f mesh.rows L 1 a.x x = 0 ∧ momentAfter f E mesh.rows L a.x x = 0 := by
      intro x
      induction x with
      | zero =>
        intro hx hs
        exact ⟨(C129_untouched h hm hv hp htol hlin hperm hL k a ha (hfib _ hs) (hu _ hx hs)).symm,
          (C129_moment h hm hv hp htol hlin hperm hL k a ha (hfib _ hs) hE).symm⟩
      | succ x ih =>
        intro hx hs
        rw [← C129_untouched h hm hv hp htol hlin hperm hL k a ha (hfib _ hs) (hu _ hx hs), ← C129_moment h hm hv hp htol hlin hperm hL k a ha (hfib _ hs) hE]
        show shearAfter f mesh.rows L 1 a.x x = 0 ∧ (if SameFiber mesh.rows x (x + 1) then _ else (0 : K)) = 0
        by_cases hn : SameFiber mesh.rows x (x + 1)
        · obtain ⟨i1, i2⟩ := ih (by omega) (htr hs (hsym hn))
          refine ⟨i1, ?_⟩
          unfold momentAfter at i2
          rw [if_pos hn] at i2 ⊢
          rw [i1] at i2 ⊢
          linarith
        · unfold shearAfter
          rw [if_neg hn, if_neg hn]
          exact ⟨rfl, rfl⟩
    have hall : ∀ d, m + d ≤ i → a.x (2 * (m + d) + 1) = a.x (2 * m + 1) ∧
        a.x (2 * (m + d)) = a.x (2 * m) + a.x (2 * m + 1) * (abscissa mesh.rows (m + d) - abscissa mesh.rows m) := by
      intro d
      induction d with
      | zero => intro _; simp
      | succ d ih =>
        intro hd
        have s1 := sameFiber_between hv (hsym him) (by omega : m ≤ m + d) (by omega)
        have s2 := sameFiber_between hv (hsym him) (by omega : m ≤ m + d + 1) (by omega)
        obtain ⟨z1, z2⟩ := hz (m + d) (by omega) (htr him s1)
        obtain ⟨r1, r2⟩ := hrigid (m + d) (htr (hsym s1) s2) z1 z2
        obtain ⟨t1, t2⟩ := ih (by omega)
        rw [show m + (d + 1) = m + d + 1 by ring]
        refine ⟨r1.trans t1, ?_⟩
        rw [r2, t1, t2]
        ring
    obtain ⟨d, hd⟩ := Nat.exists_eq_add_of_le hle
    have h1 := hall d (by omega)
    rw [← hd] at h1
    obtain ⟨h1, h2⟩ := h1
    refine ⟨h1.symm, ?_⟩
    rw [h2, h1]
    ring

open Classical in
/-- Three-point bending: a fiber of three nodes with equal spans `l`, whose ends are equally displaced, bears the force at the middle in equal parts at its ends,
and the force is proportional to the deflection. -/
theorem C129_three_point (h : solve mat mesh lmin lmax 1 o perm = .ok (S, recs, stop)) (hm : GoodMat mat)
    (hv : ValidMesh mesh.frame) (hp : PositiveLengths mesh.rows lmin lmax) (htol : 0 ≤ o.tol) (hlin : ExactLin o.lin)
    (hperm : PermOf S.n perm) {cs : ConstraintSys K} (hC : constraint mat mesh = .ok cs)
    {L : ℕ → K} (hL : BeamLengths mesh.rows lmin lmax L) (k : ℕ) (a : Rec K) (ha : recs[k]? = some a)
    {i : ℕ} {f : Fiber K} (hf : nodeFiber mat mesh.rows i = some f) {E : K} (hE : f.E = some E) (h0 : FirstOnFiber mesh.rows i)
    (h1 : SameFiber mesh.rows i (i + 1)) (h2 : SameFiber mesh.rows i (i + 2)) (h3 : ¬ SameFiber mesh.rows i (i + 3))
    (hl : L (i + 1) = L i) (hu : a.x (2 * (i + 2)) = a.x (2 * i)) :
    contactForce cs.C (fun j => a.x (2 * mesh.rows.length + j)) i = - contactForce cs.C (fun j => a.x (2 * mesh.rows.length + j)) (i + 1) / 2 ∧
    contactForce cs.C (fun j => a.x (2 * mesh.rows.length + j)) (i + 2) = - contactForce cs.C (fun j => a.x (2 * mesh.rows.length + j)) (i + 1) / 2 ∧
    contactForce cs.C (fun j => a.x (2 * mesh.rows.length + j)) (i + 1) =
      2 * transverse f (L i) * ((L i ^ 2 / 12 + E / f.G * f.h ^ 2) / (L i ^ 2 / 3 + E / f.G * f.h ^ 2)) * (a.x (2 * (i + 1)) - a.x (2 * i)) := by
  have h12 : SameFiber mesh.rows (i + 1) (i + 2) := by
    obtain ⟨r, q, hr, hq, h⟩ := h1
    obtain ⟨r', q', hr', hq', h'⟩ := h2
    rw [hr] at hr'; cases hr'
    exact ⟨q, q', hq, hq', by rw [← h, h']⟩
  have h23 : ¬ SameFiber mesh.rows (i + 2) (i + 3) := by
    rintro ⟨r, q, hr, hq, h⟩
    obtain ⟨r', q', hr', hq', h'⟩ := h2
    rw [hr] at hq'; cases hq'
    exact h3 ⟨r', q, hr', hq, by rw [h', h]⟩
  have hfib : ∀ {m}, SameFiber mesh.rows i m → nodeFiber mat mesh.rows m = some f := by
    rintro m ⟨r, q, hr, hq, hrq⟩
    unfold nodeFiber at hf ⊢
    rw [hr] at hf
    rw [hq]
    simpa [hrq] using hf
  have hsolid : Solid f := by
    unfold nodeFiber at hf
    obtain ⟨r, hr, hfr⟩ := Option.bind_eq_some_iff.1 hf
    obtain ⟨n, -, hS⟩ := hm.size
    exact GoodFiber.solid (hS _ (List.mem_of_getElem? hfr))
  have hEpos : 0 < E := by
    have := hsolid.E
    rw [hE] at this
    exact WithTop.coe_lt_coe.1 this
  have hLpos : 0 < L i := by
    obtain ⟨Km, bl, hs', l, has, hpos, hbl, -⟩ := solve_lengths h hm hp hC
    obtain ⟨p, hpm, hpi⟩ := has.all i ((C34_beams hv i (i + 1)).2 ⟨rfl, h1⟩).1
    have h1 := (hbl L).1 hL p hpm
    rw [hpi] at h1
    rw [← h1]
    exact hpos p hpm
  have hfirst : shearBefore f mesh.rows L 1 a.x i = 0 ∧ momentBefore f E mesh.rows L a.x i = 0 := by
    cases i with
    | zero => exact ⟨rfl, rfl⟩
    | succ x =>
      have hx : ¬ SameFiber mesh.rows x (x + 1) := by
        rintro ⟨r, q, hr, hq, hrq⟩
        obtain ⟨r', hr', hno⟩ := h0
        rw [hq] at hr'; cases hr'
        exact hno x r (by omega) hr hrq
      constructor
      · show shearAfter f mesh.rows L 1 a.x x = 0
        unfold shearAfter
        rw [if_neg hx]
      · show (if SameFiber mesh.rows x (x + 1) then _ else (0 : K)) = 0
        rw [if_neg hx]
  have F0 := C129_force h hm hv hp htol hlin hperm hC hL k a ha hf
  have F1 := C129_force h hm hv hp htol hlin hperm hC hL k a ha (hfib h1)
  have F2 := C129_force h hm hv hp htol hlin hperm hC hL k a ha (hfib h2)
  have M0 := C129_moment h hm hv hp htol hlin hperm hL k a ha hf hE
  have M1 := C129_moment h hm hv hp htol hlin hperm hL k a ha (hfib h1) hE
  have M2 := C129_moment h hm hv hp htol hlin hperm hL k a ha (hfib h2) hE
  rw [hfirst.1] at F0
  rw [hfirst.2] at M0
  change _ = shearAfter f mesh.rows L 1 a.x i - _ at F1
  change _ = shearAfter f mesh.rows L 1 a.x (i + 1) - _ at F2
  have hV2 : shearAfter f mesh.rows L 1 a.x (i + 2) = 0 := by
    unfold shearAfter
    rw [if_neg h23]
  rw [hV2] at F2
  change (if SameFiber mesh.rows i (i + 1) then _ else (0 : K)) = (if SameFiber mesh.rows (i + 1) (i + 2) then _ else (0 : K)) at M1
  change (if SameFiber mesh.rows (i + 1) (i + 2) then _ else (0 : K)) = (if SameFiber mesh.rows (i + 2) (i + 3) then _ else (0 : K)) at M2
  unfold momentAfter at M0
  rw [if_pos h1] at M0 M1
  rw [if_pos h12] at M1 M2
  rw [if_neg h23] at M2
  have V0 : shearAfter f mesh.rows L 1 a.x i = beamShear f (L i) 1 (a.x (2 * i)) (a.x (2 * i + 1)) (a.x (2 * (i + 1))) (a.x (2 * (i + 1) + 1)) := by
    unfold shearAfter
    rw [if_pos h1]
  have V1 : shearAfter f mesh.rows L 1 a.x (i + 1) = beamShear f (L (i + 1)) 1 (a.x (2 * (i + 1))) (a.x (2 * (i + 1) + 1)) (a.x (2 * (i + 2))) (a.x (2 * (i + 2) + 1)) := by
    unfold shearAfter
    rw [if_pos h12]
  rw [show i + 1 + 1 = i + 2 from rfl] at M1 M2
  unfold beamMoment at M0 M1 M2
  unfold beamShear at V0 V1
  rw [hl] at M1 M2 V1
  rw [hu] at V1
  have ht : 0 < transverse f (L i) := by
    rw [← stiff0_eq hsolid hLpos]
    exact stiff0_pos hsolid hLpos
  have hG := hsolid.G
  have hh := hsolid.h
  have hα : 0 < E / f.G * f.h ^ 2 := by positivity
  generalize shearAfter f mesh.rows L 1 a.x i = v0 at *
  generalize shearAfter f mesh.rows L 1 a.x (i + 1) = v1 at *
  generalize contactForce cs.C (fun j => a.x (2 * mesh.rows.length + j)) i = g0 at *
  generalize contactForce cs.C (fun j => a.x (2 * mesh.rows.length + j)) (i + 1) = g1 at *
  generalize contactForce cs.C (fun j => a.x (2 * mesh.rows.length + j)) (i + 2) = g2 at *
  generalize a.x (2 * i) = u0 at *
  generalize a.x (2 * (i + 1)) = u1 at *
  generalize a.x (2 * i + 1) = t0 at *
  generalize a.x (2 * (i + 1) + 1) = t1 at *
  generalize a.x (2 * (i + 2) + 1) = t2 at *
  generalize E / f.G * f.h ^ 2 = α at *
  generalize transverse f (L i) = κ at *
  generalize L i = l at *
  have hA : 0 < κ * (l ^ 2 / 12 + α) := by positivity
  have e1 : v1 = - v0 := by
    have : (v0 + v1) * l = 0 := by linear_combination -M0 - M1 - M2
    have := (mul_eq_zero.1 this).resolve_right hLpos.ne'
    linarith
  subst e1
  have e2 : t0 + 2 * t1 + t2 = 0 := by
    have : κ * (l * (t0 + 2 * t1 + t2)) = 0 := by linear_combination 2 * V0 + 2 * V1
    have := (mul_eq_zero.1 this).resolve_left ht.ne'
    exact (mul_eq_zero.1 this).resolve_left hLpos.ne'
  have e3 : t1 = 0 := by
    have : κ * (l ^ 2 / 12 + α) * t1 = 0 := by linear_combination (κ * (l ^ 2 / 12 + α)) / 4 * e2 + M1 / 4
    exact (mul_eq_zero.1 this).resolve_left hA.ne'
  subst e3
  refine ⟨by linarith, by linarith, ?_⟩
  have hd : 0 < l ^ 2 / 3 + α := by positivity
  have key : v0 * (l ^ 2 / 3 + α) = κ * (l ^ 2 / 12 + α) * (u1 - u0) := by
    linear_combination (l ^ 2 / 12 + α) * V0 - l / 2 * M0
  rw [F1, mul_div_assoc', div_mul_eq_mul_div, eq_div_iff hd.ne']
  linear_combination 2 * key

end Fibermat
