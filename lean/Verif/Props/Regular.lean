import Verif.Props.SolverEnergy

/-! # Theorems on regular and singular states of the solver (C72, C73) -/

set_option linter.unusedSectionVars false
set_option linter.unusedSimpArgs false

namespace Fibermat
variable {K : Type} [Field K] [LinearOrder K] [IsStrictOrderedRing K]
open Spec

variable {mat : Mat K} {mesh : Mesh K} {lmin lmax : Option K} {coupling : K} {o : Opts K} {perm : Option (List ℕ)}
  {S : Sys K} {recs : List (Rec K)} {stop : Stop}

theorem tensile_term {f : Fiber K} (hs : Solid f) : 0 ≤ tensile f / f.G * f.h ^ 2 := by
  have hE := hs.E
  have hG := hs.G
  have : 0 ≤ tensile f := by
    unfold tensile
    rcases h : f.E with _ | e
    · exact le_refl _
    · rw [h] at hE; exact (WithTop.coe_lt_coe.1 hE).le
  positivity

/-- A beam without energy turns as a whole; it only turns when the coupling is full. -/
theorem beamEnergy_zero {c : K} (hc : |c| ≤ 1) (u : ℕ → K) {p : Beam K × K} (hs : Solid p.1.fiber) (hl : 0 < p.2) :
    beamEnergy c u p = 0 ↔ u (2 * p.1.j + 1) = u (2 * p.1.i + 1) ∧ u (2 * p.1.j) = u (2 * p.1.i) + c * p.2 * u (2 * p.1.i + 1) ∧
      (|c| < 1 → u (2 * p.1.i + 1) = 0) := by
  have h0 := stiff0_pos hs hl
  have hc2 : 0 ≤ 1 - c ^ 2 := by have := (sq_le_one_iff_abs_le_one c).2 hc; linarith
  have htn := tensile_term hs
  have hk : 0 < p.2 ^ 2 / 12 + tensile p.1.fiber / p.1.fiber.G * p.1.fiber.h ^ 2 := by
    have : 0 < p.2 ^ 2 / 12 := by positivity
    linarith
  simp only [beamEnergy]
  constructor
  · intro hz
    have hz := (mul_eq_zero.1 hz).resolve_left h0.ne'
    set A := (u (2 * p.1.i) - u (2 * p.1.j) + c * p.2 * (u (2 * p.1.i + 1) + u (2 * p.1.j + 1)) / 2) ^ 2 with hA
    set B := (1 - c ^ 2) * (p.2 * (u (2 * p.1.i + 1) + u (2 * p.1.j + 1)) / 2) ^ 2 with hB
    set C := (p.2 ^ 2 / 12 + tensile p.1.fiber / p.1.fiber.G * p.1.fiber.h ^ 2) *
      (u (2 * p.1.i + 1) - u (2 * p.1.j + 1)) ^ 2 with hC
    have hA0 : 0 ≤ A := by positivity
    have hB0 : 0 ≤ B := by positivity
    have hC0 : 0 ≤ C := by positivity
    have hA1 : A = 0 := by linarith
    have hB1 : B = 0 := by linarith
    have hC1 : C = 0 := by linarith
    have hm' : u (2 * p.1.i + 1) - u (2 * p.1.j + 1) = 0 :=
      pow_eq_zero_iff (two_ne_zero) |>.1 ((mul_eq_zero.1 hC1).resolve_left hk.ne')
    have ha' : u (2 * p.1.i) - u (2 * p.1.j) + c * p.2 * (u (2 * p.1.i + 1) + u (2 * p.1.j + 1)) / 2 = 0 :=
      pow_eq_zero_iff (two_ne_zero) |>.1 hA1
    have he : u (2 * p.1.j + 1) = u (2 * p.1.i + 1) := by linarith
    refine ⟨he, ?_, fun hlt => ?_⟩
    · rw [he] at ha'; linarith
    · have hc3 : 0 < 1 - c ^ 2 := by have := (sq_lt_one_iff_abs_lt_one c).2 hlt; linarith
      have hs' : p.2 * (u (2 * p.1.i + 1) + u (2 * p.1.j + 1)) / 2 = 0 :=
        pow_eq_zero_iff (two_ne_zero) |>.1 ((mul_eq_zero.1 hB1).resolve_left hc3.ne')
      rw [he] at hs'
      have : p.2 * u (2 * p.1.i + 1) = 0 := by linarith
      exact (mul_eq_zero.1 this).resolve_left hl.ne'
  · rintro ⟨h1, h2, h3⟩
    rw [h1, h2]
    rcases lt_or_eq_of_le hc with hlt | heq
    · rw [h3 hlt]; ring
    · have : c ^ 2 = 1 := by rw [← sq_abs, heq, one_pow]
      rw [this]; ring

section
variable {rows : List (MeshRow K)} {c : K} {Km : Coo (Cell K)} {bl : List (Beam K × K)}

theorem Assembled.energy_nonneg (has : Assembled mat rows c Km bl) (hm : GoodMat mat) (hpos : ∀ p ∈ bl, 0 < p.2)
    (hc : |c| ≤ 1) (u : ℕ → K) : 0 ≤ energy (2 * rows.length) (table rows c bl) u := by
  rw [has.energy_eq]
  apply List.sum_nonneg
  intro x hx
  obtain ⟨p, hpm, rfl⟩ := List.mem_map.1 hx
  exact beamEnergy_nonneg hc _ (has.solid hm p hpm) (hpos p hpm)

theorem Assembled.energy_zero (has : Assembled mat rows c Km bl) (hm : GoodMat mat) (hpos : ∀ p ∈ bl, 0 < p.2)
    (hc : |c| ≤ 1) (u : ℕ → K) : energy (2 * rows.length) (table rows c bl) u = 0 ↔ ∀ p ∈ bl, beamEnergy c u p = 0 := by
  rw [has.energy_eq]
  have hnn : ∀ x ∈ bl.map (beamEnergy c u), 0 ≤ x := by
    intro x hx
    obtain ⟨p, hpm, rfl⟩ := List.mem_map.1 hx
    exact beamEnergy_nonneg hc _ (has.solid hm p hpm) (hpos p hpm)
  constructor
  · intro h0 p hpm
    have h1 := List.single_le_sum hnn _ (List.mem_map_of_mem hpm)
    rw [h0] at h1
    exact le_antisymm h1 (hnn _ (List.mem_map_of_mem hpm))
  · intro h0
    apply List.sum_eq_zero
    intro x hx
    obtain ⟨p, hpm, rfl⟩ := List.mem_map.1 hx
    exact h0 p hpm

/-- A displacement without energy meets no reaction. -/
theorem null_row {N : ℕ} {T : ℕ → ℕ → K} (hT : ∀ r s, T r s = T s r) (hnn : ∀ u, 0 ≤ energy N T u) {y : ℕ → K}
    (hy : energy N T y = 0) {r : ℕ} (hr : r < N) : ∑ s ∈ Finset.range N, T r s * y s = 0 := by
  set g := ∑ s ∈ Finset.range N, T r s * y s with hg
  set e := energy N T (fun s => if s = r then 1 else 0) with he
  have key : ∀ t : K, 0 ≤ 2 * (t * g) + t ^ 2 * e := by
    intro t
    have h1 := hnn (fun s => y s + t * (if s = r then 1 else 0))
    rw [energy_add N hT, hy, energy_smul N T t (fun s => if s = r then 1 else 0)] at h1
    have h2 : ∑ r' ∈ Finset.range N, t * (if r' = r then 1 else 0) * ∑ s ∈ Finset.range N, T r' s * y s = t * g := by
      rw [Finset.sum_eq_single r]
      · simp [hg]
      · intro b _ hb
        simp [hb]
      · intro hn
        exact absurd (Finset.mem_range.2 hr) hn
    rw [h2] at h1
    linarith
  have he0 : 0 ≤ e := hnn _
  by_contra hne
  have hg2 : 0 < g ^ 2 := by positivity
  have := key (-g / (e + 1))
  have hpos : 0 < e + 1 := by linarith
  have e1 : 2 * (-g / (e + 1) * g) + (-g / (e + 1)) ^ 2 * e = - (g ^ 2 * (e + 2)) / (e + 1) ^ 2 := by
    field_simp; ring
  rw [e1] at this
  have : 0 < g ^ 2 * (e + 2) / (e + 1) ^ 2 := by positivity
  rw [neg_div] at *
  linarith

/-- Diagonal entry of the rotation of a node on a beam. -/
theorem Assembled.rotation_diag (has : Assembled mat rows c Km bl) (hm : GoodMat mat) (hpos : ∀ p ∈ bl, 0 < p.2)
    (hc : |c| ≤ 1) {i : ℕ} (hi : i < rows.length) (hon : OnBeam rows i) : table rows c bl (2 * i + 1) (2 * i + 1) ≠ 0 := by
  intro h0
  have he : energy (2 * rows.length) (table rows c bl) (fun s => if s = 2 * i + 1 then 1 else 0) = 0 := by
    unfold energy
    apply Finset.sum_eq_zero
    intro r _
    apply Finset.sum_eq_zero
    intro s _
    by_cases h1 : r = 2 * i + 1
    · by_cases h2 : s = 2 * i + 1
      · rw [h1, h2, h0]; simp
      · simp [h2]
    · simp [h1]
  rw [has.energy_zero hm hpos hc] at he
  have : ∃ p ∈ bl, i = p.1.i ∨ i = p.1.j := by
    rcases hon with hst | ⟨k, hst, rfl⟩
    · obtain ⟨p, hpm, rfl⟩ := has.all i hst
      exact ⟨p, hpm, Or.inl rfl⟩
    · obtain ⟨p, hpm, rfl⟩ := has.all k hst
      exact ⟨p, hpm, Or.inr (has.beam p hpm).data.2.1⟩
  obtain ⟨p, hpm, hip⟩ := this
  have hlt := (has.beam p hpm).lt
  obtain ⟨h1, -, -⟩ := (beamEnergy_zero hc _ (has.solid hm p hpm) (hpos p hpm)).1 (he p hpm)
  have x1 : ¬ (2 * p.1.j + 1 = 2 * p.1.i + 1) := by omega
  have x2 : ¬ (2 * p.1.i + 1 = 2 * p.1.j + 1) := by omega
  rcases hip with rfl | rfl
  · simp [x1] at h1
    omega
  · simp [x2] at h1
    omega

/-- Rotations of nodes that are on no beam do not enter the matrix. -/
theorem Assembled.off_beam (has : Assembled mat rows c Km bl) {i : ℕ} (hon : ¬ OnBeam rows i) (s : ℕ) :
    table rows c bl (2 * i + 1) s = 0 := by
  rw [table, get_sum_ite]
  apply List.sum_eq_zero
  intro z hz
  obtain ⟨e, he, rfl⟩ := List.mem_map.1 hz
  rw [if_neg]
  rintro ⟨e1, -⟩
  apply hon
  obtain ⟨p, hpm, hpe⟩ := List.mem_flatMap.1 he
  obtain ⟨d1, d2, -⟩ := (has.beam p hpm).data
  simp only [numEntries, List.mem_cons, List.not_mem_nil, or_false] at hpe
  have hend : i = p.1.i ∨ i = p.1.j := by
    rcases hpe with rfl | rfl | rfl | rfl | rfl | rfl | rfl | rfl | rfl | rfl | rfl | rfl | rfl | rfl | rfl | rfl <;>
      simp only at e1 <;> omega
  rcases hend with rfl | rfl
  · exact Or.inl d1
  · exact Or.inr ⟨p.1.i, d1, d2⟩

end

/-- A value that does not change along beams is the same on each fiber. -/
theorem same_fiber {rows : List (MeshRow K)} (hbeams : BeamsCyclic rows) (hsorted : NodesSorted rows) (g : ℕ → K)
    (hg : ∀ i, StartsBeam rows i → g i = g (succNode rows i)) (i j : ℕ) (hij : SameFiber rows i j) : g i = g j := by
  have key : ∀ d i : ℕ, SameFiber rows i (i + d) → g i = g (i + d) := by
    intro d
    induction d with
    | zero => intro i _; rfl
    | succ d ih =>
      rintro i ⟨r, p, hr, hp', hf⟩
      obtain ⟨hlt, -⟩ := List.getElem?_eq_some_iff.1 hp'
      have hq : rows[i + d]? = some (rows[i + d]'(by omega)) := List.getElem?_eq_getElem (by omega)
      set q := rows[i + d]'(by omega) with hqd
      have hle : ∀ {a b : ℕ} {x y : MeshRow K}, a ≤ b → rows[a]? = some x → rows[b]? = some y → x.fiber ≤ y.fiber := by
        intro a b x y hab hx hy
        rcases Nat.eq_or_lt_of_le hab with rfl | hlt
        · rw [hx] at hy; cases hy; exact le_refl _
        · obtain ⟨h1, h1'⟩ := List.getElem?_eq_some_iff.1 hx
          obtain ⟨h2, h2'⟩ := List.getElem?_eq_some_iff.1 hy
          have := List.pairwise_iff_getElem.1 hsorted a b h1 h2 hlt
          rw [h1', h2'] at this
          rcases this with h | h
          · exact h.le
          · exact h.1.le
      have f1 := hle (Nat.le_add_right i d) hr hq
      have f2 := hle (Nat.le_succ (i + d)) hq hp'
      have hfq : q.fiber = r.fiber := le_antisymm (by rw [hf]; exact f2) f1
      rw [ih i ⟨r, q, hr, hq, hfq.symm⟩]
      obtain ⟨hst, hb⟩ := starts_of_next hbeams hq (show rows[i + d + 1]? = some p from hp') (by rw [hfq, hf])
      have hs : succNode rows (i + d) = i + d + 1 := by
        simp only [succNode, hq, hb, Option.map_some, Option.getD_some, Int.toNat_natCast]
      have := hg _ hst
      rw [hs] at this
      exact this
  rcases le_total i j with hle | hle
  · obtain ⟨d, rfl⟩ := Nat.exists_eq_add_of_le hle
    exact key d i hij
  · obtain ⟨d, rfl⟩ := Nat.exists_eq_add_of_le hle
    obtain ⟨r, p, h1, h2, h3⟩ := hij
    exact (key d j ⟨p, r, h2, h1, h3.symm⟩).symm

/-- Only the contact of a node acts on it. -/
theorem Contacts.sum_node {rows : List (MeshRow K)} {cs : ConstraintSys K} {hs : List K} {l : List (Contact K)}
    (hc : Contacts mat rows cs hs l) (hcr : ConstraintsReciprocal rows) {q : ℕ} {x : Contact K} (hq : l[q]? = some x) {i : ℕ}
    (hix : i = x.i ∨ i = x.j) {y : ℕ → K} {N : ℕ} :
    ∑ j ∈ Finset.range (3 * l.length), cs.C.get j (2 * i) * y (N + j) = cs.C.get (3 * q) (2 * i) * y (N + 3 * q) +
      cs.C.get (3 * q + 1) (2 * i) * y (N + (3 * q + 1)) + cs.C.get (3 * q + 2) (2 * i) * y (N + (3 * q + 2)) := by
  have hlt := hc.lt x (List.mem_of_getElem? hq)
  have hiN : 2 * i < 2 * rows.length := by omega
  rw [sum_contacts, Finset.sum_eq_single q]
  · intro k hk hkq
    have hkl := Finset.mem_range.1 hk
    have hk' : l[k]? = some l[k] := List.getElem?_eq_getElem hkl
    generalize l[k] = z at hk'
    have hz : ∀ i', i' = z.i ∨ i' = z.j → 2 * i' ≠ 2 * i := by
      intro i' hi' e
      apply hkq
      refine hc.unique hcr hk' hq ?_
      rcases hi' with rfl | rfl <;> rcases hix with rfl | rfl <;> omega
    have z1 := hz _ (Or.inl rfl)
    have z2 := hz _ (Or.inr rfl)
    have c0 := hc.entry hk' (show 0 < 3 by omega) hiN
    have c1 := hc.entry hk' (show 1 < 3 by omega) hiN
    have c2 := hc.entry hk' (show 2 < 3 by omega) hiN
    simp only [z1, z2, if_false] at c0 c1 c2
    simp only [add_zero] at c0
    rw [c0, c1, c2]
    simp
  · intro hnm
    exact absurd (Finset.mem_range.2 (List.getElem?_eq_some_iff.1 hq).1) hnm

/-- The number of records stays below a sufficient iteration limit. -/
theorem not_limited (h : solve mat mesh lmin lmax coupling o perm = .ok (S, recs, stop)) (hm : GoodMat mat)
    (hp : PositiveLengths mesh.rows lmin lmax) (htol : 0 ≤ o.tol) (hlin : ExactLin o.lin) (hperm : PermOf S.n perm)
    (hiter : 3 * mesh.rows.length < o.itermax) : recs.length ≠ o.itermax + 1 := by
  intro h1
  obtain ⟨Km, cs, hK, hC, -, -⟩ := solve_run h
  have h2 := C45_terminates h hm hp htol hlin hperm hC
  obtain ⟨hs, l, hc⟩ := contacts_of hC
  have hl : l.length ≤ mesh.rows.length := by
    have : (l.map (·.i)).toFinset ⊆ Finset.range mesh.rows.length := by
      intro i hi
      rw [List.mem_toFinset, List.mem_map] at hi
      obtain ⟨x, hx, rfl⟩ := hi
      have := hc.lt x hx
      rw [Finset.mem_range]; omega
    have := Finset.card_le_card this
    rw [List.toFinset_card_of_nodup hc.distinct, Finset.card_range] at this
    simpa using this
  rw [hc.C] at h2
  simp only at h2
  omega

/-! ## C72 -/

/-- Displacements without elastic energy: every beam moves as a rigid body.  It turns only when `|coupling| = 1` and the tensile
modulus is finite. -/
theorem C72_rigid {Km : Coo (Cell K)} (h : stiffness mat mesh lmin lmax coupling = .ok Km) (hm : GoodMat mat)
    (hv : ValidMesh mesh.frame) (hp : PositiveLengths mesh.rows lmin lmax) (hcoup : |coupling| ≤ 1) {L : ℕ → K}
    (hL : BeamLengths mesh.rows lmin lmax L) (v : ℕ → K) :
    (Guided mat mesh.rows v ∧ elasticEnergy mat mesh.rows coupling L v = 0) ↔
      ∀ i f, StartsBeam mesh.rows i → nodeFiber mat mesh.rows i = some f →
        v (2 * succNode mesh.rows i + 1) = v (2 * i + 1) ∧
        v (2 * succNode mesh.rows i) = v (2 * i) + coupling * L i * v (2 * i + 1) ∧
        (|coupling| < 1 ∨ f.E = ⊤ → v (2 * i + 1) = 0) := by
  have hbeams : BeamsCyclic mesh.rows := by have := hv.beams; rwa [rows_meshFrame] at this
  obtain ⟨bl, has, hpos, -, hbl⟩ := assembled_lengths h
  have hpos := hpos hp
  have hbl := (hbl L).1 hL
  rw [← has.energy_doc hm hpos hbl, has.energy_zero hm hpos hcoup]
  constructor
  · rintro ⟨hg, he⟩ i f hi hf
    obtain ⟨p, hpm, rfl⟩ := has.all i hi
    obtain ⟨d1, d2, d3⟩ := (has.beam p hpm).data
    obtain ⟨h1, h2, h3⟩ := (beamEnergy_zero hcoup v (has.solid hm p hpm) (hpos p hpm)).1 (he p hpm)
    rw [d2, ← hbl p hpm]
    refine ⟨h1, h2, ?_⟩
    rintro (hlt | hE)
    · exact h3 hlt
    · exact hg _ f hf hE (Or.inl hi)
  · intro hall
    refine ⟨(has.guided hbeams).2 ?_, ?_⟩
    · rintro r ⟨p, hpm, hE, hr⟩
      obtain ⟨d1, d2, d3⟩ := (has.beam p hpm).data
      obtain ⟨h1, -, h3⟩ := hall _ _ d1 d3
      have h3 := h3 (Or.inr hE)
      rw [d2] at h1
      rcases hr with rfl | rfl
      · exact h3
      · rw [h1, h3]
    · intro p hpm
      obtain ⟨d1, d2, d3⟩ := (has.beam p hpm).data
      obtain ⟨h1, h2, h3⟩ := hall _ _ d1 d3
      rw [d2] at h1 h2
      rw [← hbl p hpm] at h2
      exact (beamEnergy_zero hcoup v (has.solid hm p hpm) (hpos p hpm)).2 ⟨h1, h2, fun hlt => h3 (Or.inl hlt)⟩

/-- A singular state is jammed or floating. -/
theorem singular_cases (h : solve mat mesh lmin lmax coupling o perm = .ok (S, recs, stop)) (hm : GoodMat mat)
    (hv : ValidMesh mesh.frame) (hp : PositiveLengths mesh.rows lmin lmax) (hcoup : |coupling| ≤ 1) {L : ℕ → K}
    (hL : BeamLengths mesh.rows lmin lmax L)
    (htol : 0 ≤ o.tol) (hlin : ExactLin o.lin) (hperm : PermOf S.n perm) {k : ℕ} {a : Rec K} (ha : recs[k]? = some a)
    (h3 : ¬ RegularAt S o.tol a) :
    Jammed mat mesh.rows o.tol a.Z a.x ∨ Floating mat mesh.rows coupling L o.tol a.Z a.x := by
  have hcr : ConstraintsReciprocal mesh.rows := by have := hv.constraints; rwa [rows_meshFrame] at this
  have hbeams : BeamsCyclic mesh.rows := by have := hv.beams; rwa [rows_meshFrame] at this
  obtain ⟨Km, cs, hK, hC, -, hrun⟩ := solve_run h
  obtain ⟨Km, bl, hs, l, has, hpos, hbl, hc, rfl, hN, hnK, hn, hnC, hcols, hZ, hsd, rfl⟩ := solve_lengths h hm hp hC
  have hi := hsd.inv ha
  set N := 2 * mesh.rows.length with hNdef
  set T := table mesh.rows coupling bl with hT
  unfold RegularAt at h3
  push Not at h3
  obtain ⟨y, y1, y2, r0, hr0, hy0⟩ := h3
  have y2 : ∀ r, r < (assemble Km cs).n → (assemble Km cs).active o.tol a.x a.q r = true →
      apply (assemble Km cs) (wholeTable N T cs.C) y r = 0 := by
    intro r hr hact
    have := y2 r hr hact
    rw [hsd.mulVec (hsd.active_num hi hr hact).1] at this
    simpa using this
  have hrow : ∀ j, j < 3 * l.length → y (N + j) * rowDot cs.C j y = 0 := by
    intro j hj
    by_cases hact : (assemble Km cs).active o.tol a.x a.q (N + j) = true
    · rw [← apply_constraint (N := N) (T := T) (C := cs.C) hn (by rw [hc.C]) y j, y2 _ (by omega) hact, mul_zero]
    · rw [y1 _ (by simpa using hact), zero_mul]
  have hcross : ∑ r ∈ Finset.range N, y r * ∑ j ∈ Finset.range (3 * l.length), cs.C.get j r * y (N + j) = 0 := by
    have : ∑ r ∈ Finset.range N, y r * ∑ j ∈ Finset.range (3 * l.length), cs.C.get j r * y (N + j) =
        ∑ j ∈ Finset.range (3 * l.length), y (N + j) * rowDot cs.C j y := by
      have hcols : cs.C.ncols = N := by rw [hc.C]
      simp only [rowDot, hcols, Finset.mul_sum]
      rw [Finset.sum_comm]
      apply Finset.sum_congr rfl
      intro j _
      apply Finset.sum_congr rfl
      intro r _
      ring
    rw [this]
    exact Finset.sum_eq_zero (fun j hj => hrow j (Finset.mem_range.1 hj))
  have hen : energy N T y = 0 := by
    have hf : ∀ r, r < N → y r * apply (assemble Km cs) (wholeTable N T cs.C) y r = 0 := by
      intro r hr
      by_cases hact : (assemble Km cs).active o.tol a.x a.q r = true
      · rw [y2 _ (by omega) hact, mul_zero]
      · rw [y1 _ (by simpa using hact), zero_mul]
    have e2 : ∑ r ∈ Finset.range N, y r * apply (assemble Km cs) (wholeTable N T cs.C) y r = energy N T y + 0 := by
      rw [energy_eq_bilin, ← hcross, ← Finset.sum_add_distrib]
      apply Finset.sum_congr rfl
      intro r hr
      rw [apply_force hn y (Finset.mem_range.1 hr), mul_add]
    rw [Finset.sum_eq_zero (fun r hr => hf r (Finset.mem_range.1 hr))] at e2
    linarith
  have hguided : Guided mat mesh.rows y := by
    rw [has.guided hbeams]
    intro r hr
    by_contra hne
    have hrN := hsd.lt r hr
    have hact : (assemble Km cs).active o.tol a.x a.q r = true := by
      by_contra hcon
      exact hne (y1 _ (by simpa using hcon))
    exact (hsd.active_num hi (by omega) hact).1 hr
  by_cases hu : ∃ i, i < mesh.rows.length ∧ (y (2 * i) ≠ 0 ∨ (OnBeam mesh.rows i ∧ y (2 * i + 1) ≠ 0))
  · right
    refine ⟨y, hu, hguided, ?_, ?_⟩
    · rw [← has.energy_doc hm hpos ((hbl L).1 hL)]
      exact hen
    intro i j hij
    obtain ⟨k, x, hk, rfl, rfl⟩ := hc.ofPair hij
    have hkl := (List.getElem?_eq_some_iff.1 hk).1
    have key : ∀ d, d < 3 → (d = 1 → x.i ≠ x.j) → geoGap mat mesh.rows a.Z a.x x d ≤ o.tol →
        (if d = 0 then - y (2 * x.i) else if d = 1 then y (2 * x.i) - y (2 * x.j) else y (2 * x.j)) = 0 := by
      intro d hd h1 h2
      have hact := (hc.active hN hsd hn hi hk hd o.tol).2 ⟨h1, h2⟩
      rw [← hc.row hk hd y, ← apply_constraint (N := N) (T := T) (C := cs.C) hn (by rw [hc.C]) y]
      exact y2 _ (by omega) hact
    refine ⟨fun hg => ?_, fun hne hg => ?_, fun hg => ?_⟩
    · have := key 0 (by omega) (by omega) (by simpa [geoGap] using hg)
      simpa using this
    · have := key 1 (by omega) (fun _ => hne) (by simpa [geoGap] using hg)
      simp at this
      linarith
    · have := key 2 (by omega) (by omega) (by simpa [geoGap] using hg)
      simpa using this
  · left
    push Not at hu
    -- the displacements vanish, so some contact force does not
    have hdisp : ∀ r, r < N → y r = 0 := by
      intro r hr
      rcases Nat.even_or_odd' r with ⟨i, rfl | rfl⟩
      · exact (hu i (by omega)).1
      · by_cases hact : (assemble Km cs).active o.tol a.x a.q (2 * i + 1) = true
        · apply (hu i (by omega)).2
          by_contra hon
          obtain ⟨hrg, c, hcb⟩ := hsd.active_num hi (by omega) hact
          obtain ⟨-, s, hs', hne⟩ := (hsd.active_iff hi hrg hcb _).1 hact
          apply hne
          by_cases hsN : s < N
          · rw [hsd.symm]
            simp only [wholeTable, hr, hsN, if_true]
            exact has.off_beam hon s
          · simp only [wholeTable, hr, hsN, if_true, if_false]
            exact hc.odd (by omega) (by omega)
        · exact y1 _ (by simpa using hact)
    have hr0N : N ≤ r0 := by
      by_contra hlt
      exact hy0 (hdisp r0 (by omega))
    obtain ⟨q, d, hd, rfl⟩ : ∃ q d, d < 3 ∧ r0 = N + (3 * q + d) :=
      ⟨(r0 - N) / 3, (r0 - N) % 3, by omega, by omega⟩
    have hq : l[q]? = some l[q] := List.getElem?_eq_getElem (by omega)
    generalize l[q] = x at hq
    have hxl := List.mem_of_getElem? hq
    have hlt := hc.lt x hxl
    -- balance of the forces on the nodes of the contact
    have hbal : ∀ i, i = x.i ∨ i = x.j → cs.C.get (3 * q) (2 * i) * y (N + 3 * q) +
        cs.C.get (3 * q + 1) (2 * i) * y (N + (3 * q + 1)) + cs.C.get (3 * q + 2) (2 * i) * y (N + (3 * q + 2)) = 0 := by
      intro i hix
      have hact := hc.active_node (o := { o with perm := perm.getD (List.range (assemble Km cs).n) }) hN hsd hn frozen_odd
        hlin (permOf_getD hperm) htol ha hxl hix
      have hiN : 2 * i < N := by omega
      have := y2 (2 * i) (by omega) hact
      rw [apply_force hn y hiN, Finset.sum_eq_zero (fun s hs => by rw [hdisp s (Finset.mem_range.1 hs), mul_zero]), zero_add,
        hc.sum_node hcr hq hix] at this
      exact this
    have bi := hbal x.i (Or.inl rfl)
    have bj := hbal x.j (Or.inr rfl)
    have c0 := fun i hi => hc.entry (s := 2 * i) hq (show 0 < 3 by omega) hi
    have c1 := fun i hi => hc.entry (s := 2 * i) hq (show 1 < 3 by omega) hi
    have c2 := fun i hi => hc.entry (s := 2 * i) hq (show 2 < 3 by omega) hi
    simp only [add_zero] at c0
    rw [c0 _ hlt.1, c1 _ hlt.1, c2 _ hlt.1] at bi
    rw [c0 _ hlt.2, c1 _ hlt.2, c2 _ hlt.2] at bj
    have hforce : ∀ d, d < 3 → y (N + (3 * q + d)) ≠ 0 → (d = 1 → x.i ≠ x.j) ∧ geoGap mat mesh.rows a.Z a.x x d ≤ o.tol := by
      intro d hd hyd
      rw [← hc.active hN hsd hn hi hq hd o.tol]
      by_contra hcon
      exact hyd (y1 _ (by simpa using hcon))
    refine ⟨x.i, x.j, hc.isPair hxl, ?_⟩
    by_cases hij : x.i = x.j
    · have hy1 : y (N + (3 * q + 1)) = 0 := by
        by_contra hcon
        exact (hforce 1 (by omega) hcon).1 rfl hij
      have b0 : y (N + (3 * q + 2)) = y (N + (3 * q + 0)) := by
        simp [hij, hy1] at bi
        simp only [add_zero]
        linarith
      have hy0' : y (N + (3 * q + 0)) ≠ 0 := by
        rcases (by omega : d = 0 ∨ d = 1 ∨ d = 2) with rfl | rfl | rfl
        · exact hy0
        · exact absurd hy1 hy0
        · rwa [b0] at hy0
      have g0 := (hforce 0 (by omega) hy0').2
      have g2 := (hforce 2 (by omega) (by rwa [b0])).2
      exact ⟨by simpa [geoGap] using g0, fun hne => absurd hij hne, by simpa [geoGap] using g2⟩
    · have hij2 : ¬ (2 * x.i = 2 * x.j) := by omega
      have hij3 : ¬ (2 * x.j = 2 * x.i) := by omega
      simp [hij2, hij3, hij, Ne.symm hij] at bi bj
      have b0 : y (N + (3 * q + 1)) = y (N + (3 * q + 0)) := by simp only [add_zero]; linarith
      have b1 : y (N + (3 * q + 2)) = y (N + (3 * q + 0)) := by rw [← b0]; linarith
      have hy0' : y (N + (3 * q + 0)) ≠ 0 := by
        rcases (by omega : d = 0 ∨ d = 1 ∨ d = 2) with rfl | rfl | rfl
        · exact hy0
        · rwa [b0] at hy0
        · rwa [b1] at hy0
      have g0 := (hforce 0 (by omega) hy0').2
      have g1 := (hforce 1 (by omega) (by rwa [b0])).2
      have g2 := (hforce 2 (by omega) (by rwa [b1])).2
      exact ⟨by simpa [geoGap] using g0, fun _ => by simpa [geoGap] using g1, by simpa [geoGap] using g2⟩

/-- A jammed state is singular: equal forces through the contact. -/
theorem jammed_singular (h : solve mat mesh lmin lmax coupling o perm = .ok (S, recs, stop)) (hm : GoodMat mat)
    (hv : ValidMesh mesh.frame) (hp : PositiveLengths mesh.rows lmin lmax)
    {k : ℕ} {a : Rec K} (ha : recs[k]? = some a)
    (hj : Jammed mat mesh.rows o.tol a.Z a.x) : ¬ RegularAt S o.tol a := by
  have hcr : ConstraintsReciprocal mesh.rows := by have := hv.constraints; rwa [rows_meshFrame] at this
  intro hreg
  obtain ⟨Km, cs, hK, hC, -, hrun⟩ := solve_run h
  obtain ⟨Km, bl, hs, l, has, hpos, hbl, hc, rfl, hN, hnK, hn, hnC, hcols, hZ, hsd, rfl⟩ := solve_lengths h hm hp hC
  have hi := hsd.inv ha
  obtain ⟨i, j, hij, g0, g1, g2⟩ := hj
  obtain ⟨q, x, hq, rfl, rfl⟩ := hc.ofPair hij
  have hql := (List.getElem?_eq_some_iff.1 hq).1
  have hlt := hc.lt x (List.mem_of_getElem? hq)
  set N := 2 * mesh.rows.length with hNdef
  have act : ∀ d, d < 3 → (d = 1 → x.i ≠ x.j) → (assemble Km cs).active o.tol a.x a.q (N + (3 * q + d)) = true := by
    intro d hd h1
    refine (hc.active hN hsd hn hi hq hd o.tol).2 ⟨h1, ?_⟩
    interval_cases d
    · simpa [geoGap] using g0
    · simpa [geoGap] using g1 (h1 rfl)
    · simpa [geoGap] using g2
  set y : ℕ → K := fun r => if r = N + 3 * q then 1 else if r = N + (3 * q + 1) then (if x.i = x.j then 0 else 1)
    else if r = N + (3 * q + 2) then 1 else 0 with hy
  have hy0 : ∀ r, r < N → y r = 0 := by
    intro r hr
    have x1 : ¬ (r = N + 3 * q) := by omega
    have x2 : ¬ (r = N + (3 * q + 1)) := by omega
    have x3 : ¬ (r = N + (3 * q + 2)) := by omega
    simp only [hy, x1, x2, x3, if_false]
  have v0 : y (N + 3 * q) = 1 := by simp [hy]
  have v1 : y (N + (3 * q + 1)) = if x.i = x.j then 0 else 1 := by simp [hy]
  have v2 : y (N + (3 * q + 2)) = 1 := by simp [hy]
  have := hreg y ?_ ?_ (N + 3 * q) (by omega)
  · rw [v0] at this
    exact one_ne_zero this
  · intro r hr
    by_contra hne
    have hcases : r = N + (3 * q + 0) ∨ (r = N + (3 * q + 1) ∧ x.i ≠ x.j) ∨ r = N + (3 * q + 2) := by
      by_contra hcon
      push Not at hcon
      apply hne
      simp only [hy]
      rw [if_neg (by simpa using hcon.1)]
      split_ifs with e1 e2 e3
      · rfl
      · exact absurd (hcon.2.1 e1) e2
      · exact absurd e3 hcon.2.2
      · rfl
    rcases hcases with rfl | ⟨rfl, hne'⟩ | rfl
    · rw [act 0 (by omega) (by omega)] at hr; cases hr
    · rw [act 1 (by omega) (fun _ => hne')] at hr; cases hr
    · rw [act 2 (by omega) (by omega)] at hr; cases hr
  · intro r hr hact
    rw [hsd.mulVec (hsd.active_num hi hr hact).1]
    congr 1
    by_cases hrN : r < N
    · rw [apply_force hn y hrN, Finset.sum_eq_zero (fun s hs => by rw [hy0 s (Finset.mem_range.1 hs), mul_zero]), zero_add,
        sum_contacts, Finset.sum_eq_single q]
      · rw [v0, v1, v2]
        have c0 := hc.entry hq (show 0 < 3 by omega) hrN
        have c1 := hc.entry hq (show 1 < 3 by omega) hrN
        have c2 := hc.entry hq (show 2 < 3 by omega) hrN
        simp only [add_zero] at c0
        rw [c0, c1, c2]
        by_cases hij : x.i = x.j
        · simp [hij]
        · simp only [hij, if_true, if_false, one_ne_zero, OfNat.ofNat_ne_zero, OfNat.ofNat_ne_one]
          ring
      · intro b _ hb
        have z0 : y (N + 3 * b) = 0 := by
          have x1 : ¬ (N + 3 * b = N + 3 * q) := by omega
          have x2 : ¬ (N + 3 * b = N + (3 * q + 1)) := by omega
          have x3 : ¬ (N + 3 * b = N + (3 * q + 2)) := by omega
          simp only [hy, x1, x2, x3, if_false]
        have z1 : y (N + (3 * b + 1)) = 0 := by
          have x1 : ¬ (N + (3 * b + 1) = N + 3 * q) := by omega
          have x2 : ¬ (N + (3 * b + 1) = N + (3 * q + 1)) := by omega
          have x3 : ¬ (N + (3 * b + 1) = N + (3 * q + 2)) := by omega
          simp only [hy, x1, x2, x3, if_false]
        have z2 : y (N + (3 * b + 2)) = 0 := by
          have x1 : ¬ (N + (3 * b + 2) = N + 3 * q) := by omega
          have x2 : ¬ (N + (3 * b + 2) = N + (3 * q + 1)) := by omega
          have x3 : ¬ (N + (3 * b + 2) = N + (3 * q + 2)) := by omega
          simp only [hy, x1, x2, x3, if_false]
        rw [z0, z1, z2]; simp
      · intro hnm
        exact absurd (Finset.mem_range.2 hql) hnm
    · obtain ⟨m, rfl⟩ := Nat.exists_eq_add_of_le (not_lt.1 hrN)
      rw [apply_constraint hn hcols]
      unfold rowDot
      apply Finset.sum_eq_zero
      intro s hs
      rw [hcols] at hs
      rw [hy0 s (Finset.mem_range.1 hs), mul_zero]

/-- A floating state is singular. -/
theorem floating_singular (h : solve mat mesh lmin lmax coupling o perm = .ok (S, recs, stop)) (hm : GoodMat mat)
    (hv : ValidMesh mesh.frame) (hp : PositiveLengths mesh.rows lmin lmax) (hcoup : |coupling| ≤ 1) {L : ℕ → K}
    (hL : BeamLengths mesh.rows lmin lmax L)
    (htol : 0 ≤ o.tol) (hlin : ExactLin o.lin) (hperm : PermOf S.n perm) {k : ℕ} {a : Rec K} (ha : recs[k]? = some a)
    (hj : Floating mat mesh.rows coupling L o.tol a.Z a.x) : ¬ RegularAt S o.tol a := by
  classical
  have hcr : ConstraintsReciprocal mesh.rows := by have := hv.constraints; rwa [rows_meshFrame] at this
  have hbeams : BeamsCyclic mesh.rows := by have := hv.beams; rwa [rows_meshFrame] at this
  intro hreg
  obtain ⟨v, ⟨i0, hi0, hv0⟩, hg, he, hkeep⟩ := hj
  obtain ⟨Km, cs, hK, hC, -, hrun⟩ := solve_run h
  obtain ⟨Km, bl, hs, l, has, hpos, hbl, hc, rfl, hN, hnK, hn, hnC, hcols, hZ, hsd, rfl⟩ := solve_lengths h hm hp hC
  have hi := hsd.inv ha
  set N := 2 * mesh.rows.length with hNdef
  set T := table mesh.rows coupling bl with hT
  rw [has.guided hbeams] at hg
  set y : ℕ → K := fun r => if r < N ∧ (r % 2 = 0 ∨ OnBeam mesh.rows (r / 2)) then v r else 0 with hy
  have ye : ∀ i, i < mesh.rows.length → y (2 * i) = v (2 * i) := by
    intro i hi
    have : 2 * i < N ∧ ((2 * i) % 2 = 0 ∨ OnBeam mesh.rows (2 * i / 2)) := ⟨by omega, Or.inl (by omega)⟩
    simp only [hy, this, if_true]
    simp
  have yo : ∀ i, i < mesh.rows.length → OnBeam mesh.rows i → y (2 * i + 1) = v (2 * i + 1) := by
    intro i hi hon
    have e : (2 * i + 1) / 2 = i := by omega
    have : 2 * i + 1 < N ∧ ((2 * i + 1) % 2 = 0 ∨ OnBeam mesh.rows ((2 * i + 1) / 2)) := ⟨by omega, Or.inr (by rw [e]; exact hon)⟩
    simp only [hy]
    rw [if_pos this]
  have yN : ∀ r, N ≤ r → y r = 0 := by
    intro r hr
    simp only [hy]
    rw [if_neg (by omega)]
  have hen : energy N T y = 0 := by
    have hz : energy N T v = 0 := by
      rw [has.energy_doc hm hpos ((hbl L).1 hL)]; exact he
    rw [has.energy_zero hm hpos hcoup] at hz ⊢
    intro p hpm
    rw [← hz p hpm]
    obtain ⟨d1, d2, -⟩ := (has.beam p hpm).data
    have hlt := has.lt p hpm
    have o1 : OnBeam mesh.rows p.1.i := Or.inl d1
    have o2 : OnBeam mesh.rows p.1.j := Or.inr ⟨_, d1, d2⟩
    unfold beamEnergy
    rw [ye _ (by omega), ye _ (by omega), yo _ (by omega) o1, yo _ (by omega) o2]
  have hnull := fun {r} (hr : r < N) => null_row (table_symm mesh.rows coupling bl) (has.energy_nonneg hm hpos hcoup) hen hr
  have hnz : ∃ r, r < N ∧ y r ≠ 0 := by
    rcases hv0 with h0 | ⟨hon, h0⟩
    · exact ⟨2 * i0, by omega, by rw [ye _ hi0]; exact h0⟩
    · exact ⟨2 * i0 + 1, by omega, by rw [yo _ hi0 hon]; exact h0⟩
  obtain ⟨r0, hr0, hne0⟩ := hnz
  refine hne0 (hreg y ?_ ?_ r0 (by omega))
  · intro r hr
    by_contra hne
    have hrN : r < N := by
      by_contra hcon
      exact hne (yN r (by omega))
    have hact : (assemble Km cs).active o.tol a.x a.q r = true := by
      rcases Nat.even_or_odd' r with ⟨i, rfl | rfl⟩
      · -- every node has a contact
        obtain ⟨row, hrow⟩ : ∃ row, mesh.rows[i]? = some row := ⟨_, List.getElem?_eq_getElem (by omega)⟩
        obtain ⟨j, p, h1, h2, h3⟩ := hcr i row hrow
        have : ∃ x ∈ l, i = x.i ∨ i = x.j := by
          rcases le_total i j with hle | hle
          · obtain ⟨k, x, hk, e1, e2⟩ := hc.ofPair (i := i) (j := j) ⟨hle, row, hrow, h1⟩
            exact ⟨x, List.mem_of_getElem? hk, Or.inl e1.symm⟩
          · obtain ⟨k, x, hk, e1, e2⟩ := hc.ofPair (i := j) (j := i) ⟨hle, p, h2, h3⟩
            exact ⟨x, List.mem_of_getElem? hk, Or.inr e2.symm⟩
        obtain ⟨x, hxl, hix⟩ := this
        exact hc.active_node (o := { o with perm := perm.getD (List.range (assemble Km cs).n) }) hN hsd hn frozen_odd
          hlin (permOf_getD hperm) htol ha hxl hix
      · have e : (2 * i + 1) / 2 = i := by omega
        have hon : OnBeam mesh.rows i := by
          by_contra hcon
          apply hne
          simp only [hy]
          rw [if_neg]
          rintro ⟨-, h | h⟩
          · omega
          · rw [e] at h; exact hcon h
        have hnf : ¬ Frozen bl (2 * i + 1) := by
          intro hf
          apply hne
          rw [yo _ (by omega) hon, hg _ hf]
        have hq0 := (hsd.force (2 * i + 1) (by omega)).1
        rw [hsd.active_iff hi hnf hq0]
        refine ⟨?_, 2 * i + 1, by omega, ?_⟩
        · have hb := hsd.balance_exact (o := { o with perm := perm.getD (List.range (assemble Km cs).n) }) hlin
            (permOf_getD hperm) htol (r := 2 * i + 1) (by omega) hnf ha
          unfold gap
          rw [hb, (hsd.force (2 * i + 1) (by omega)).2]
          simpa using htol
        · simp only [wholeTable, hrN, if_true]
          exact has.rotation_diag hm hpos hcoup (by omega) hon
    rw [hact] at hr
    cases hr
  · intro r hr hact
    rw [hsd.mulVec (hsd.active_num hi hr hact).1]
    congr 1
    by_cases hrN : r < N
    · rw [apply_force hn y hrN, hnull hrN, zero_add]
      apply Finset.sum_eq_zero
      intro j _
      rw [yN _ (by omega), mul_zero]
    · obtain ⟨m, rfl⟩ := Nat.exists_eq_add_of_le (not_lt.1 hrN)
      rw [apply_constraint hn hcols]
      obtain ⟨q, d, hd, rfl⟩ : ∃ q d, d < 3 ∧ m = 3 * q + d := ⟨m / 3, m % 3, by omega, by omega⟩
      have hq : l[q]? = some l[q] := List.getElem?_eq_getElem (by omega)
      generalize l[q] = x at hq
      have hxl := List.mem_of_getElem? hq
      have hlt := hc.lt x hxl
      obtain ⟨ne1, hgap⟩ := (hc.active hN hsd hn hi hq hd o.tol).1 hact
      obtain ⟨k0, k1, k2⟩ := hkeep _ _ (hc.isPair hxl)
      rw [hc.row hq hd, ye _ (by omega), ye _ (by omega)]
      interval_cases d
      · simp only [if_true]
        rw [k0 (by simpa [geoGap] using hgap), neg_zero]
      · simp only [one_ne_zero, if_true, if_false]
        rw [k1 (ne1 rfl) (by simpa [geoGap] using hgap), sub_self]
      · simp only [OfNat.ofNat_ne_zero, OfNat.ofNat_ne_one, if_false]
        exact k2 (by simpa [geoGap] using hgap)

/-- The reduced system of a recorded state is regular exactly when the mat is neither jammed nor floating. -/
theorem C72_regular (h : solve mat mesh lmin lmax coupling o perm = .ok (S, recs, stop)) (hm : GoodMat mat)
    (hv : ValidMesh mesh.frame) (hp : PositiveLengths mesh.rows lmin lmax) (hcoup : |coupling| ≤ 1) {L : ℕ → K}
    (hL : BeamLengths mesh.rows lmin lmax L)
    (htol : 0 ≤ o.tol) (hlin : ExactLin o.lin) (hperm : PermOf S.n perm) (k : ℕ) (a : Rec K) (ha : recs[k]? = some a) :
    RegularAt S o.tol a ↔
      ¬ Jammed mat mesh.rows o.tol a.Z a.x ∧ ¬ Floating mat mesh.rows coupling L o.tol a.Z a.x := by
  constructor
  · exact fun hreg => ⟨fun hj => jammed_singular h hm hv hp ha hj hreg,
      fun hf => floating_singular h hm hv hp hcoup hL htol hlin hperm ha hf hreg⟩
  · rintro ⟨h1, h2⟩
    by_contra hns
    rcases singular_cases h hm hv hp hcoup hL htol hlin hperm ha hns with hc | hc
    · exact h1 hc
    · exact h2 hc

/-! ## C73 -/

/-- Without full coupling a mat floats exactly when some fibers can be translated. -/
theorem C73_translation {Km : Coo (Cell K)} (h : stiffness mat mesh lmin lmax coupling = .ok Km) (hm : GoodMat mat)
    (hv : ValidMesh mesh.frame) (hp : PositiveLengths mesh.rows lmin lmax) (hcoup : |coupling| ≤ 1) {L : ℕ → K}
    (hL : BeamLengths mesh.rows lmin lmax L) (hor : |coupling| < 1 ∨ ∀ f ∈ mat.fibers, f.E = ⊤) (tol Z : K) (u : ℕ → K) :
    Floating mat mesh.rows coupling L tol Z u ↔ Unsupported mat mesh.rows tol Z u := by
  have hmem : ∀ {i f}, nodeFiber mat mesh.rows i = some f → f ∈ mat.fibers := by
    intro i f hf
    unfold nodeFiber at hf
    cases hi : mesh.rows[i]? with
    | none => rw [hi] at hf; cases hf
    | some r => rw [hi] at hf; exact List.mem_of_getElem? hf
  have hrig := C72_rigid h hm hv hp hcoup hL
  have hbeams : BeamsCyclic mesh.rows := by have := hv.beams; rwa [rows_meshFrame] at this
  have hsorted : NodesSorted mesh.rows := by have := hv.sorted; rwa [rows_meshFrame] at this
  obtain ⟨bl, has, hpos, -, hbl⟩ := assembled_lengths h
  constructor
  · rintro ⟨v, ⟨i, hi, hnz⟩, hg, he, hk⟩
    have hall := (hrig v).1 ⟨hg, he⟩
    have hrot : ∀ i, StartsBeam mesh.rows i → v (2 * i + 1) = 0 := by
      intro i hi
      obtain ⟨p, hpm, rfl⟩ := has.all i hi
      obtain ⟨d1, d2, d3⟩ := (has.beam p hpm).data
      exact (hall _ _ d1 d3).2.2 (hor.imp_right (fun hE => hE _ (hmem d3)))
    have hstep : ∀ i, StartsBeam mesh.rows i → v (2 * succNode mesh.rows i) = v (2 * i) := by
      intro i hi
      obtain ⟨p, hpm, rfl⟩ := has.all i hi
      obtain ⟨d1, d2, d3⟩ := (has.beam p hpm).data
      have := (hall _ _ d1 d3).2.1
      rw [hrot _ d1, mul_zero, add_zero] at this
      exact this
    refine ⟨v, ⟨i, hi, ?_⟩, same_fiber hbeams hsorted (fun i => v (2 * i)) (fun i hi => (hstep i hi).symm), hk⟩
    rcases hnz with hnz | ⟨hon, hnz⟩
    · exact hnz
    · exfalso
      apply hnz
      rcases hon with hst | ⟨k, hst, rfl⟩
      · exact hrot i hst
      · obtain ⟨p, hpm, rfl⟩ := has.all k hst
        obtain ⟨d1, d2, d3⟩ := (has.beam p hpm).data
        rw [(hall _ _ d1 d3).1, hrot _ d1]
  · rintro ⟨v, ⟨i, hi, hnz⟩, hsame, hk⟩
    refine ⟨fun r => if r % 2 = 0 then v r else 0, ⟨i, hi, Or.inl ?_⟩, ?_⟩
    · simpa using hnz
    · rw [← and_assoc, hrig]
      constructor
      · intro i f hst hf
        have x1 : (2 * i + 1) % 2 ≠ 0 := by omega
        have x2 : (2 * succNode mesh.rows i + 1) % 2 ≠ 0 := by omega
        have x3 : (2 * i) % 2 = 0 := by omega
        have x4 : (2 * succNode mesh.rows i) % 2 = 0 := by omega
        simp only [x1, x2, x3, x4, if_true, if_false, mul_zero, add_zero, implies_true, and_true, true_and]
        obtain ⟨p, hpm, rfl⟩ := has.all i hst
        obtain ⟨d1, d2, d3⟩ := (has.beam p hpm).data
        obtain ⟨r, q, g1, g2, g3, -⟩ := (has.beam p hpm).rows
        obtain ⟨-, q', hq', hf'⟩ := beam_next hbeams g1 g3 (has.beam p hpm).lt
        rw [d2]
        exact (hsame _ _ ⟨r, q', g1, hq', hf'.symm⟩).symm
      · intro i j hij
        have x3 : (2 * i) % 2 = 0 := by omega
        have x4 : (2 * j) % 2 = 0 := by omega
        simpa only [x3, x4, if_true] using hk i j hij

/-- The run stops early only when the last state is jammed or floating (any tensile moduli, `|coupling| ≤ 1`). -/
theorem C73_blocked (h : solve mat mesh lmin lmax coupling o perm = .ok (S, recs, .blocked)) (hm : GoodMat mat)
    (hv : ValidMesh mesh.frame) (hp : PositiveLengths mesh.rows lmin lmax) (hcoup : |coupling| ≤ 1) {L : ℕ → K}
    (hL : BeamLengths mesh.rows lmin lmax L)
    (htol : 0 ≤ o.tol) (herr : 0 ≤ o.errtol) (hlin : GoodLin o.lin) (hperm : PermOf S.n perm) (hne : mesh.rows ≠ []) :
    ∃ a, recs.getLast? = some a ∧ Cell.lt a.rlambda o.packing = true ∧
      (Jammed mat mesh.rows o.tol a.Z a.x ∨ Floating mat mesh.rows coupling L o.tol a.Z a.x) := by
  have hcr : ConstraintsReciprocal mesh.rows := by have := hv.constraints; rwa [rows_meshFrame] at this
  obtain ⟨a, h1, h2, h3⟩ := C62_singular h hm hp herr hlin hperm hcr hne
  exact ⟨a, h1, h2, singular_cases h hm hv hp hcoup hL htol hlin.1 hperm (getLast_getElem h1) h3⟩

/-- A run whose iterations are not limited ends at the target packing, jammed, or floating. -/
theorem C73_completion (h : solve mat mesh lmin lmax coupling o perm = .ok (S, recs, stop)) (hm : GoodMat mat)
    (hv : ValidMesh mesh.frame) (hp : PositiveLengths mesh.rows lmin lmax) (hcoup : |coupling| ≤ 1) {L : ℕ → K}
    (hL : BeamLengths mesh.rows lmin lmax L)
    (htol : 0 ≤ o.tol) (herr : 0 ≤ o.errtol) (hlin : GoodLin o.lin) (hperm : PermOf S.n perm) (hne : mesh.rows ≠ [])
    (hiter : 3 * mesh.rows.length < o.itermax) :
    ∃ a, recs.getLast? = some a ∧ (Cell.lt a.rlambda o.packing = false ∨
      Jammed mat mesh.rows o.tol a.Z a.x ∨ Floating mat mesh.rows coupling L o.tol a.Z a.x) := by
  cases stop with
  | unmodelled => exact absurd rfl (C61_modelled h hm hp htol hlin.1 hperm)
  | blocked =>
    obtain ⟨a, h1, -, h2⟩ := C73_blocked h hm hv hp hcoup hL htol herr hlin hperm hne
    exact ⟨a, h1, Or.inr h2⟩
  | reached =>
    rcases C40_reached h with h1 | ⟨a, h1, h2⟩
    · exact absurd h1 (not_limited h hm hp htol hlin.1 hperm hiter)
    · exact ⟨a, h1, Or.inl h2⟩

/-! ## C74 -/

theorem loop_congr {o' : Opts K} (hpk : o'.packing = o.packing) (n : ℕ) (a : Rec K)
    (hs : ∀ b ∈ a :: (S.loop o n a).1, Cell.lt b.rlambda o.packing = true → S.step o' b = S.step o b) :
    S.loop o' n a = S.loop o n a := by
  induction n generalizing a with
  | zero => rfl
  | succ n ih =>
    unfold Sys.loop at hs ⊢
    rw [hpk]
    split_ifs at hs ⊢ with hl
    · rw [hs a (by simp) hl]
      cases he : S.step o a with
      | error e => rfl
      | ok b =>
        rw [he] at hs
        simp only at hs ⊢
        rw [ih b (fun c hc => hs c (List.mem_cons_of_mem _ hc))]
    · rfl

/-- Without answer of the linear solver, the step does not depend on the solver. -/
theorem step_none_congr {o' : Opts K} {a : Rec K} (hp : o.perm.Perm (List.range S.n)) (hp' : o'.perm.Perm (List.range S.n))
    (ht : o'.tol = o.tol) (hd : S.direction o a = none) (hd' : S.direction o' a = none) : S.step o' a = S.step o a := by
  have hm : ∀ c, c ∈ S.actives o' a ↔ c ∈ S.actives o a := by
    intro c
    rw [mem_actives hp, mem_actives hp', ht]
  unfold Sys.step Sys.limiting
  rw [hd, hd']
  simp only [hm, ht]

/-- If no recorded state floats, the whole result is determined by the mat, the mesh and the tolerances: it does not depend on the
linear solver nor on the permutation of the unknowns. -/
theorem C74_determined (h : solve mat mesh lmin lmax coupling o perm = .ok (S, recs, stop)) (hm : GoodMat mat)
    (hv : ValidMesh mesh.frame) (hp : PositiveLengths mesh.rows lmin lmax) (hcoup : |coupling| ≤ 1) {L : ℕ → K}
    (hL : BeamLengths mesh.rows lmin lmax L) (htol : 0 ≤ o.tol) (hlin : GoodLin o.lin) (hperm : PermOf S.n perm)
    (hfloat : ∀ a ∈ recs, Cell.lt a.rlambda o.packing = true → ¬ Floating mat mesh.rows coupling L o.tol a.Z a.x)
    {lin' : LinSolver K} (hlin' : GoodLin lin') {perm' : Option (List ℕ)} (hperm' : PermOf S.n perm') :
    solve mat mesh lmin lmax coupling { o with lin := lin' } perm' = .ok (S, recs, stop) := by
  have hreg := C72_regular h hm hv hp hcoup hL htol hlin.1 hperm
  obtain ⟨Km, cs, hK, hC, -, hrun⟩ := solve_run h
  obtain ⟨bl, hs, l, has, hpos, hc, rfl, hnK, hn, hnC, hZ, hsd, rfl⟩ := solve_sound h hm hp hK hC
  have hN : Km.nrows = 2 * mesh.rows.length := by rw [has.eq]
  set o1 : Opts K := { o with perm := perm.getD (List.range (assemble Km cs).n) } with ho1
  set o2 : Opts K := { { o with lin := lin' } with perm := perm'.getD (List.range (assemble Km cs).n) } with ho2
  have p1 := permOf_getD hperm
  have p2 := permOf_getD hperm'
  have key : (assemble Km cs).run o2 = (assemble Km cs).run o1 := by
    have : (assemble Km cs).loop o2 o.itermax ((assemble Km cs).init o1) =
        (assemble Km cs).loop o1 o.itermax ((assemble Km cs).init o1) := by
      apply loop_congr (o := o1) (o' := o2) rfl
      intro b hb hlt
      have hb : b ∈ ((assemble Km cs).run o1).1 := hb
      obtain ⟨k, hk⟩ := List.mem_iff_getElem?.1 hb
      have hi := hsd.inv hk
      by_cases hr : RegularAt (assemble Km cs) o.tol b
      · exact step_perm hsd hi (o := o1) (o' := o2) p1 p2 rfl rfl hlin hlin' hr
      · have hj : Jammed mat mesh.rows o.tol b.Z b.x := by
          by_contra hcon
          exact hr ((hreg k b hk).2 ⟨hcon, hfloat b hb hlt⟩)
        have hnone : ∀ o' : Opts K, ExactLin o'.lin → o'.perm.Perm (List.range (assemble Km cs).n) → o'.tol = o.tol →
            (assemble Km cs).direction o' b = none := by
          intro o' hl hp' htl
          cases hd : (assemble Km cs).direction o' b with
          | none => rfl
          | some dx =>
            exfalso
            have hex := hsd.exact hl hp' hi hd
            obtain ⟨i, j, hij, g0, g1, g2⟩ := hj
            obtain ⟨q, x, hq, rfl, rfl⟩ := hc.ofPair hij
            have hql := (List.getElem?_eq_some_iff.1 hq).1
            have key : ∀ d, d < 3 → (d = 1 → x.i ≠ x.j) → geoGap mat mesh.rows b.Z b.x x d ≤ o.tol →
                (if d = 0 then dx (2 * x.i) else if d = 1 then dx (2 * x.j) - dx (2 * x.i) else 1 - dx (2 * x.j)) = 0 := by
              intro d hd h1 h2
              have hact := (hc.active hN hsd hn hi hq hd o'.tol).2 ⟨h1, by rw [htl]; exact h2⟩
              rw [← hc.rates (Km := Km) (T := table mesh.rows coupling bl) hN hn hq hd dx, hex _ (by omega) hact, sub_self]
            have k0 := key 0 (by omega) (by omega) (by simpa [geoGap] using g0)
            have k2 := key 2 (by omega) (by omega) (by simpa [geoGap] using g2)
            simp at k0 k2
            by_cases e : x.i = x.j
            · rw [e] at k0; linarith
            · have k1 := key 1 (by omega) (fun _ => e) (by simpa [geoGap] using g1 e)
              simp at k1
              linarith
        exact step_none_congr (o := o1) (o' := o2) p1 p2 rfl (hnone o1 hlin.1 p1 rfl) (hnone o2 hlin'.1 p2 rfl)
    exact congrArg (fun r : List (Rec K) × Stop => ((assemble Km cs).init o1 :: r.1, r.2)) this
  unfold solve
  rw [hK, hC]
  change Except.ok (assemble Km cs, (assemble Km cs).run o2) = _
  rw [key, hrun]

end Fibermat
