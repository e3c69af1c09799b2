import Verif.Spec.Broken
import Verif.Props.Pull

/-! # C128: shape of the fibers with infinite tensile modulus -/

set_option linter.unusedSectionVars false

namespace Fibermat
variable {K : Type} [Field K] [LinearOrder K] [IsStrictOrderedRing K]
open Spec

variable {mat : Mat K} {mesh : Mesh K} {lmin lmax : Option K} {coupling : K} {o : Opts K} {perm : Option (List ℕ)}
  {S : Sys K} {recs : List (Rec K)} {stop : Stop}

theorem sum_map_unique {α : Type} {key : α → ℕ} {g : α → K} {i : ℕ} {p : α} : ∀ {l : List α}, (l.map key).Nodup → p ∈ l → key p = i →
    (l.map (fun q => if key q = i then g q else 0)).sum = g p
  | [], _, h, _ => by simp at h
  | q :: l, hn, h, hk => by
    rw [List.map_cons, List.nodup_cons] at hn
    rw [List.map_cons, List.sum_cons]
    rcases List.mem_cons.1 h with rfl | h
    · rw [if_pos hk, List.map_congr_left (g := fun _ => (0 : K)), List.map_const', List.sum_replicate, smul_zero, add_zero]
      intro r hr
      rw [if_neg]
      intro h2
      exact hn.1 (List.mem_map.2 ⟨r, hr, by rw [h2, hk]⟩)
    · rw [sum_map_unique hn.2 h hk, if_neg, zero_add]
      intro h2
      exact hn.1 (List.mem_map.2 ⟨p, h, by rw [h2, hk]⟩)

theorem sum_map_none {α : Type} {key : α → ℕ} {g : α → K} {i : ℕ} {l : List α} (h : ∀ p ∈ l, key p ≠ i) :
    (l.map (fun q => if key q = i then g q else 0)).sum = 0 := by
  rw [List.map_congr_left (g := fun _ => (0 : K)), List.map_const', List.sum_replicate, smul_zero]
  intro r hr
  rw [if_neg (h r hr)]

/-- The contact force on a node of a fiber that only shears is the jump of the slope. -/
theorem C128_force (h : solve mat mesh lmin lmax coupling o perm = .ok (S, recs, stop)) (hm : GoodMat mat)
    (hv : ValidMesh mesh.frame) (hp : PositiveLengths mesh.rows lmin lmax) (htol : 0 ≤ o.tol) (hlin : ExactLin o.lin)
    (hperm : PermOf S.n perm) {cs : ConstraintSys K} (hC : constraint mat mesh = .ok cs)
    {L : ℕ → K} (hL : BeamLengths mesh.rows lmin lmax L) (k : ℕ) (a : Rec K) (ha : recs[k]? = some a)
    {i : ℕ} {f : Fiber K} (hf : nodeFiber mat mesh.rows i = some f) (hE : f.E = ⊤) :
    contactForce cs.C (fun j => a.x (2 * mesh.rows.length + j)) i =
      f.G * sectionArea f * (slopeBefore mesh.rows L a.x i - slopeAfter mesh.rows L a.x i) := by
  have hbeams : BeamsCyclic mesh.rows := by have := hv.beams; rwa [rows_meshFrame] at this
  obtain ⟨Km, bl, hs, l, has, hpos, hbl, hc, rfl, hN, hnK, hn, hnC, hcols, hZ0, hsd, rfl⟩ := solve_lengths h hm hp hC
  have hL' := (hbl L).1 hL
  unfold nodeFiber at hf
  obtain ⟨r, hr, hfr⟩ := Option.bind_eq_some_iff.1 hf
  have hi : i < mesh.rows.length := (List.getElem?_eq_some_iff.1 hr).1
  -- the beams at the node belong to its fiber
  have hat : ∀ p ∈ bl, p.1.j = p.1.i + 1 ∧ SameFiber mesh.rows p.1.i (p.1.i + 1) ∧ (p.1.i = i ∨ p.1.j = i → p.1.fiber = f) := by
    intro p hpm
    obtain ⟨r1, q1, h1, h2, h3, -, -, h6⟩ := (has.beam p hpm).rows
    obtain ⟨hj, q', hq', hfq⟩ := beam_next hbeams h1 h3 (has.beam p hpm).lt
    rw [h2] at hq'; cases hq'
    refine ⟨hj, ⟨r1, q1, h1, by rw [← hj]; exact h2, hfq.symm⟩, ?_⟩
    rintro (rfl | rfl)
    · rw [h1] at hr; cases hr
      rw [h6] at hfr; exact Option.some.inj hfr
    · rw [h2] at hr; cases hr
      rw [← hfq] at h6
      rw [h6] at hfr; exact Option.some.inj hfr
  have hfree : ∀ p ∈ bl, p.1.i = i ∨ p.1.j = i → coupling = 0 ∨ (a.x (2 * p.1.i + 1) = 0 ∧ a.x (2 * p.1.j + 1) = 0) := by
    intro p hpm hend
    right
    have hEp : p.1.fiber.E = ⊤ := by rw [(hat p hpm).2.2 hend]; exact hE
    have hinv := hsd.inv ha
    exact ⟨hinv.frozen _ ⟨p, hpm, hEp, Or.inl rfl⟩, hinv.frozen _ ⟨p, hpm, hEp, Or.inr rfl⟩⟩
  have hbal := hsd.balance_exact (o := { o with perm := perm.getD (List.range (assemble Km cs).n) }) hlin (permOf_getD hperm) htol (r := 2 * i)
    (by rw [hnK]; omega) (by rintro ⟨p, -, -, h1 | h1⟩ <;> omega) ha
  rw [apply_force hn _ (by omega), spring_row has hfree hi] at hbal
  have hforce : contactForce cs.C (fun j => a.x (2 * mesh.rows.length + j)) i =
      (bl.map (fun p => stiff0 p.1.fiber p.2 * ((if p.1.i = i then a.x (2 * p.1.i) - a.x (2 * p.1.j) else 0) +
        (if p.1.j = i then a.x (2 * p.1.j) - a.x (2 * p.1.i) else 0)))).sum := by
    unfold contactForce
    rw [hnC]
    linarith
  rw [hforce]
  set κ := f.G * sectionArea f with hκ
  have hk : ∀ p ∈ bl, p.1.i = i ∨ p.1.j = i → stiff0 p.1.fiber p.2 = κ / L p.1.i := by
    intro p hpm hend
    rw [stiff0_eq (has.solid hm p hpm) (hpos p hpm), (hat p hpm).2.2 hend, ← hL' p hpm]
    unfold transverse
    rw [hE]
    exact inv_div _ _
  have hsplit : (bl.map (fun p => stiff0 p.1.fiber p.2 * ((if p.1.i = i then a.x (2 * p.1.i) - a.x (2 * p.1.j) else 0) +
        (if p.1.j = i then a.x (2 * p.1.j) - a.x (2 * p.1.i) else 0)))).sum =
      (bl.map (fun p => if p.1.i = i then κ / L p.1.i * (a.x (2 * p.1.i) - a.x (2 * (p.1.i + 1))) else 0)).sum +
        (bl.map (fun p => if p.1.j = i then κ / L p.1.i * (a.x (2 * (p.1.i + 1)) - a.x (2 * p.1.i)) else 0)).sum := by
    rw [← List.sum_map_add]
    congr 1
    apply List.map_congr_left
    intro p hpm
    have hj := (hat p hpm).1
    by_cases h1 : p.1.i = i
    · have h2 : ¬ p.1.j = i := by omega
      rw [if_pos h1, if_neg h2, if_pos h1, if_neg h2, hk p hpm (Or.inl h1), hj]
      ring
    · by_cases h2 : p.1.j = i
      · rw [if_neg h1, if_pos h2, if_neg h1, if_pos h2, hk p hpm (Or.inr h2), hj]
        ring
      · simp only [if_neg h1, if_neg h2]
        ring
  rw [hsplit]
  have hafter : (bl.map (fun p => if p.1.i = i then κ / L p.1.i * (a.x (2 * p.1.i) - a.x (2 * (p.1.i + 1))) else 0)).sum =
      - (κ * slopeAfter mesh.rows L a.x i) := by
    unfold slopeAfter
    by_cases hsf : SameFiber mesh.rows i (i + 1)
    · obtain ⟨p, hpm, hpi⟩ := has.all i ((C34_beams hv i (i + 1)).2 ⟨rfl, hsf⟩).1
      rw [sum_map_unique (key := fun p => p.1.i) has.nodup hpm hpi, hpi, if_pos hsf]
      ring
    · rw [sum_map_none (key := fun p : Beam K × K => p.1.i), if_neg hsf]
      · ring
      · rintro p hpm rfl
        exact hsf (hat p hpm).2.1
  have hbefore : (bl.map (fun p => if p.1.j = i then κ / L p.1.i * (a.x (2 * (p.1.i + 1)) - a.x (2 * p.1.i)) else 0)).sum =
      κ * slopeBefore mesh.rows L a.x i := by
    cases i with
    | zero =>
      rw [sum_map_none (key := fun p : Beam K × K => p.1.j)]
      · simp [slopeBefore]
      · intro p hpm h0
        have := (hat p hpm).1
        omega
    | succ i =>
      show _ = κ * slopeAfter mesh.rows L a.x i
      unfold slopeAfter
      have hnd : (bl.map (fun p => p.1.j)).Nodup := by
        have : bl.map (fun p => p.1.j) = (bl.map (fun p => p.1.i)).map (· + 1) := by
          rw [List.map_map]
          exact List.map_congr_left (fun p hpm => (hat p hpm).1)
        rw [this]
        exact has.nodup.map (fun _ _ h => Nat.succ.inj h)
      by_cases hsf : SameFiber mesh.rows i (i + 1)
      · obtain ⟨p, hpm, hpi⟩ := has.all i ((C34_beams hv i (i + 1)).2 ⟨rfl, hsf⟩).1
        rw [sum_map_unique (key := fun p => p.1.j) hnd hpm (by rw [(hat p hpm).1, hpi]), hpi, if_pos hsf]
        ring
      · rw [sum_map_none (key := fun p : Beam K × K => p.1.j), if_neg hsf]
        · ring
        · intro p hpm h2
          have h3 := hat p hpm
          have h4 : p.1.i = i := by omega
          rw [h4] at h3
          exact hsf h3.2.1
  rw [hafter, hbefore]
  ring

/-- A node that touches nothing bears no force. -/
theorem untouched_force (h : solve mat mesh lmin lmax coupling o perm = .ok (S, recs, stop)) (hm : GoodMat mat)
    (hv : ValidMesh mesh.frame) (hp : PositiveLengths mesh.rows lmin lmax) (hlin : ExactLin o.lin)
    (hperm : PermOf S.n perm) {cs : ConstraintSys K} (hC : constraint mat mesh = .ok cs) (k : ℕ) (a : Rec K) (ha : recs[k]? = some a)
    {m : ℕ} (hm' : m < mesh.rows.length) (hu : Untouched mat mesh.rows o.tol a.Z a.x m) :
    contactForce cs.C (fun j => a.x (2 * mesh.rows.length + j)) m = 0 := by
  have hcr : ConstraintsReciprocal mesh.rows := by have := hv.constraints; rwa [rows_meshFrame] at this
  obtain ⟨Km, bl, hs, l, has, hpos, hbl, hc, rfl, hN, hnK, hn, hnC, hcols, hZ0, hsd, rfl⟩ := solve_lengths h hm hp hC
  have hi := hsd.inv ha
  have hzero : ∀ j, j < 3 * l.length → cs.C.get j (2 * m) * a.x (2 * mesh.rows.length + j) = 0 := by
    intro j hj
    have hql : j / 3 < l.length := by omega
    have hq : l[j / 3]? = some l[j / 3] := List.getElem?_eq_getElem hql
    have hd : j % 3 < 3 := Nat.mod_lt _ (by norm_num)
    have hj3 : 3 * (j / 3) + j % 3 = j := by omega
    generalize l[j / 3] = x at hq
    have he := hc.entry hq hd (s := 2 * m) (by omega)
    rw [hj3] at he
    by_cases hx : a.x (2 * mesh.rows.length + j) = 0
    · rw [hx, mul_zero]
    have hact := hsd.support (o := { o with perm := perm.getD (List.range (assemble Km cs).n) }) hlin (permOf_getD hperm) (by omega) ha hx
    have hact' := hact
    rw [← hj3] at hact'
    obtain ⟨g1, g2⟩ := (hc.active hN hsd hn hi hq hd o.tol).1 hact'
    obtain ⟨u1, u2, u3⟩ := hu x.i x.j (hc.isPair (List.mem_of_getElem? hq))
    rw [he]
    have hinj : ∀ y : ℕ, 2 * y = 2 * m → m = y := fun y hy => by omega
    unfold geoGap at g2
    rcases (by omega : j % 3 = 0 ∨ j % 3 = 1 ∨ j % 3 = 2) with h3 | h3 | h3 <;> rw [h3] at g1 g2 ⊢ <;>
      simp only [if_true, one_ne_zero, OfNat.ofNat_ne_zero, OfNat.ofNat_ne_one, if_false] at g1 g2 ⊢
    · rw [if_neg (fun hy => absurd g2 (not_le.2 (u1 (hinj _ hy))))]
      ring
    · rw [if_neg (fun hy => absurd g2 (not_le.2 (u3 (Or.inl (hinj _ hy)) (g1 trivial)))), if_neg (fun hy => absurd g2 (not_le.2 (u3 (Or.inr (hinj _ hy)) (g1 trivial))))]
      ring
    · rw [if_neg (fun hy => absurd g2 (not_le.2 (u2 (hinj _ hy))))]
      ring
  unfold contactForce
  rw [hnC, Finset.sum_eq_zero (fun j hj => hzero j (Finset.mem_range.1 hj)), neg_zero]

/-- The fiber runs straight through a node that touches nothing, and it is level at an end that touches nothing. -/
theorem C128_straight (h : solve mat mesh lmin lmax coupling o perm = .ok (S, recs, stop)) (hm : GoodMat mat)
    (hv : ValidMesh mesh.frame) (hp : PositiveLengths mesh.rows lmin lmax) (htol : 0 ≤ o.tol) (hlin : ExactLin o.lin)
    (hperm : PermOf S.n perm) {L : ℕ → K} (hL : BeamLengths mesh.rows lmin lmax L) (k : ℕ) (a : Rec K) (ha : recs[k]? = some a)
    {i : ℕ} {f : Fiber K} (hf : nodeFiber mat mesh.rows i = some f) (hE : f.E = ⊤) (hu : Untouched mat mesh.rows o.tol a.Z a.x i) :
    slopeBefore mesh.rows L a.x i = slopeAfter mesh.rows L a.x i := by
  obtain ⟨Km, cs, -, hC, -, -⟩ := solve_run h
  have hf' := hf
  unfold nodeFiber at hf'
  obtain ⟨r, hr, hfr⟩ := Option.bind_eq_some_iff.1 hf'
  have h1 := C128_force h hm hv hp htol hlin hperm hC hL k a ha hf hE
  rw [untouched_force h hm hv hp hlin hperm hC k a ha (List.getElem?_eq_some_iff.1 hr).1 hu] at h1
  obtain ⟨n, -, hS⟩ := hm.size
  have hs := GoodFiber.solid (hS _ (List.mem_of_getElem? hfr))
  have hA : 0 < f.G * sectionArea f := by
    unfold sectionArea
    have := npPi_pos (K := K)
    have := hs.b
    have := hs.h
    have := hs.G
    positivity
  have := (mul_eq_zero.1 h1.symm).resolve_left hA.ne'
  linarith

/-- Nodes between two nodes of a fiber belong to it. -/
theorem sameFiber_between (hv : ValidMesh mesh.frame) {i j m : ℕ} (h : SameFiber mesh.rows i j) (him : i ≤ m) (hmj : m ≤ j) :
    SameFiber mesh.rows i m := by
  have hs : NodesSorted mesh.rows := by have := hv.sorted; rwa [rows_meshFrame] at this
  obtain ⟨r, q, hr, hq, hrq⟩ := h
  have hml : m < mesh.rows.length := lt_of_le_of_lt hmj (List.getElem?_eq_some_iff.1 hq).1
  refine ⟨r, mesh.rows[m], hr, List.getElem?_eq_getElem hml, ?_⟩
  have key : ∀ {x y : ℕ} {p p' : MeshRow K}, x ≤ y → mesh.rows[x]? = some p → mesh.rows[y]? = some p' → p.fiber ≤ p'.fiber := by
    intro x y p p' hxy hx hy
    rcases hxy.eq_or_lt with rfl | hlt
    · rw [hx] at hy; cases hy; exact le_rfl
    · obtain ⟨hx1, rfl⟩ := List.getElem?_eq_some_iff.1 hx
      obtain ⟨hy1, rfl⟩ := List.getElem?_eq_some_iff.1 hy
      rcases List.pairwise_iff_getElem.1 hs x y hx1 hy1 hlt with h1 | h1
      · exact h1.le
      · exact h1.1.le
  have h1 := key him hr (List.getElem?_eq_getElem hml)
  have h2 := key hmj (List.getElem?_eq_getElem hml) hq
  exact le_antisymm h1 (by rw [hrq]; exact h2)

/-- Between two nodes of a fiber with nothing touching in between, displacements are interpolated linearly. -/
theorem C128_between (h : solve mat mesh none none coupling o perm = .ok (S, recs, stop)) (hm : GoodMat mat)
    (hv : ValidMesh mesh.frame) (hp : PositiveLengths mesh.rows none none) (htol : 0 ≤ o.tol) (hlin : ExactLin o.lin)
    (hperm : PermOf S.n perm) (k : ℕ) (a : Rec K) (ha : recs[k]? = some a)
    {i j m : ℕ} {f : Fiber K} (hf : nodeFiber mat mesh.rows i = some f) (hE : f.E = ⊤) (hij : SameFiber mesh.rows i j)
    (hu : ∀ m, i < m → m < j → Untouched mat mesh.rows o.tol a.Z a.x m) (him : i ≤ m) (hmj : m ≤ j) :
    (a.x (2 * m) - a.x (2 * i)) * (abscissa mesh.rows j - abscissa mesh.rows i) =
      (a.x (2 * j) - a.x (2 * i)) * (abscissa mesh.rows m - abscissa mesh.rows i) := by
  obtain ⟨Km, cs, hK, hC, -, -⟩ := solve_run h
  obtain ⟨-, ⟨L, hL⟩, -, hraw⟩ := C65_lengths hK
  have hLs := hraw rfl rfl L hL
  have hfib : ∀ m, i ≤ m → m ≤ j → nodeFiber mat mesh.rows m = some f := by
    intro m h1 h2
    obtain ⟨r, q, hr, hq, hrq⟩ := sameFiber_between hv hij h1 h2
    unfold nodeFiber at hf ⊢
    rw [hr] at hf
    rw [hq]
    simpa [hrq] using hf
  have hnext : ∀ m, i ≤ m → m + 1 ≤ j → SameFiber mesh.rows m (m + 1) := by
    intro m h1 h2
    obtain ⟨r, q, hr, hq, hrq⟩ := sameFiber_between hv hij h1 (by omega : m ≤ j)
    obtain ⟨r', q', hr', hq', hrq'⟩ := sameFiber_between hv hij (by omega : i ≤ m + 1) h2
    rw [hr] at hr'; cases hr'
    exact ⟨q, q', hq, hq', by rw [← hrq, hrq']⟩
  have hbeam : ∀ m, i ≤ m → m + 1 ≤ j → L m = abscissa mesh.rows (m + 1) - abscissa mesh.rows m ∧ 0 < L m := by
    intro m h1 h2
    obtain ⟨h3, h4⟩ := (C34_beams hv m (m + 1)).2 ⟨rfl, hnext m h1 h2⟩
    have h5 := hp.raw rfl m h3
    rw [hLs m h3]
    refine ⟨?_, h5⟩
    unfold beamLength
    rw [h4]
  set σ := slopeAfter mesh.rows L a.x i with hσ
  have hconst : ∀ d, i + d + 1 ≤ j → slopeAfter mesh.rows L a.x (i + d) = σ := by
    intro d
    induction d with
    | zero => intro _; rfl
    | succ d ih =>
      intro hd
      have h1 := C128_straight h hm hv hp htol hlin hperm hL k a ha (hfib (i + d + 1) (by omega) (by omega)) hE (hu _ (by omega) (by omega))
      rw [show i + (d + 1) = i + d + 1 by ring, ← h1]
      exact ih (by omega)
  have hlin : ∀ d, i + d ≤ j → a.x (2 * (i + d)) - a.x (2 * i) = σ * (abscissa mesh.rows (i + d) - abscissa mesh.rows i) := by
    intro d
    induction d with
    | zero => intro _; simp
    | succ d ih =>
      intro hd
      have h1 := hconst d (by omega)
      obtain ⟨h2, h3⟩ := hbeam (i + d) (by omega) (by omega)
      unfold slopeAfter at h1
      rw [if_pos (hnext (i + d) (by omega) (by omega)), div_eq_iff h3.ne', h2] at h1
      rw [show i + (d + 1) = i + d + 1 by ring]
      have := ih (by omega)
      linear_combination h1 + this
  obtain ⟨d, rfl⟩ := Nat.exists_eq_add_of_le him
  obtain ⟨e, rfl⟩ := Nat.exists_eq_add_of_le (him.trans hmj)
  rw [hlin d hmj, hlin e le_rfl]
  ring

/-- Beyond the last node that touches something, and before the first one, the fiber is level. -/
theorem C128_level (h : solve mat mesh lmin lmax coupling o perm = .ok (S, recs, stop)) (hm : GoodMat mat)
    (hv : ValidMesh mesh.frame) (hp : PositiveLengths mesh.rows lmin lmax) (htol : 0 ≤ o.tol) (hlin : ExactLin o.lin)
    (hperm : PermOf S.n perm) (k : ℕ) (a : Rec K) (ha : recs[k]? = some a)
    {i m : ℕ} {f : Fiber K} (hf : nodeFiber mat mesh.rows i = some f) (hE : f.E = ⊤) (him : SameFiber mesh.rows i m) :
    (i ≤ m → (∀ m', i < m' → SameFiber mesh.rows i m' → Untouched mat mesh.rows o.tol a.Z a.x m') → a.x (2 * m) = a.x (2 * i)) ∧
      (m ≤ i → (∀ m', m' < i → SameFiber mesh.rows i m' → Untouched mat mesh.rows o.tol a.Z a.x m') → a.x (2 * m) = a.x (2 * i)) := by
  obtain ⟨Km, cs, hK, hC, -, -⟩ := solve_run h
  obtain ⟨-, ⟨L, hL⟩, -, -⟩ := C65_lengths hK
  have hLpos : ∀ m, SameFiber mesh.rows m (m + 1) → 0 < L m := by
    intro m hs
    obtain ⟨Km, bl, hs', l, has, hpos, hbl, -⟩ := solve_lengths h hm hp hC
    obtain ⟨p, hpm, hpi⟩ := has.all m ((C34_beams hv m (m + 1)).2 ⟨rfl, hs⟩).1
    have h1 := (hbl L).1 hL p hpm
    rw [hpi] at h1
    rw [← h1]
    exact hpos p hpm
  have htr : ∀ {x y z : ℕ}, SameFiber mesh.rows x y → SameFiber mesh.rows y z → SameFiber mesh.rows x z := by
    rintro x y z ⟨r, q, hr, hq, h1⟩ ⟨r', q', hr', hq', h2⟩
    rw [hq] at hr'; cases hr'
    exact ⟨r, q', hr, hq', h1.trans h2⟩
  have hsym : ∀ {x y : ℕ}, SameFiber mesh.rows x y → SameFiber mesh.rows y x := by
    rintro x y ⟨r, q, hr, hq, h1⟩
    exact ⟨q, r, hq, hr, h1.symm⟩
  have hstr : ∀ m', SameFiber mesh.rows i m' → Untouched mat mesh.rows o.tol a.Z a.x m' →
      slopeBefore mesh.rows L a.x m' = slopeAfter mesh.rows L a.x m' := by
    rintro m' ⟨r, q, hr, hq, hrq⟩ hu
    refine C128_straight h hm hv hp htol hlin hperm hL k a ha (f := f) ?_ hE hu
    unfold nodeFiber at hf ⊢
    rw [hr] at hf
    rw [hq]
    simpa [hrq] using hf
  have hstep : ∀ m', SameFiber mesh.rows m' (m' + 1) → slopeAfter mesh.rows L a.x m' = 0 → a.x (2 * (m' + 1)) = a.x (2 * m') := by
    intro m' hs h0
    unfold slopeAfter at h0
    rw [if_pos hs, div_eq_zero_iff] at h0
    have := h0.resolve_right (hLpos m' hs).ne'
    linarith
  constructor
  · intro hle hu
    -- the slopes after the nodes from `i` on vanish, from the last one backwards
    have hz : ∀ d x, mesh.rows.length ≤ x + d → i ≤ x → SameFiber mesh.rows i x → slopeAfter mesh.rows L a.x x = 0 := by
      intro d
      induction d with
      | zero =>
        rintro x hx - ⟨r, q, -, hq, -⟩
        have := (List.getElem?_eq_some_iff.1 hq).1
        omega
      | succ d ih =>
        intro x hx hix hs
        by_cases hn : SameFiber mesh.rows x (x + 1)
        · have h1 := hstr (x + 1) (htr hs hn) (hu _ (by omega) (htr hs hn))
          rw [ih (x + 1) (by omega) (by omega) (htr hs hn)] at h1
          exact h1
        · unfold slopeAfter
          rw [if_neg hn]
    have hall : ∀ d, i + d ≤ m → a.x (2 * (i + d)) = a.x (2 * i) := by
      intro d
      induction d with
      | zero => intro _; rfl
      | succ d ih =>
        intro hd
        have s1 := sameFiber_between hv him (by omega : i ≤ i + d) (by omega)
        have s2 := sameFiber_between hv him (by omega : i ≤ i + d + 1) (by omega)
        have := hstep (i + d) (htr (hsym s1) s2) (hz mesh.rows.length _ (by omega) (by omega) s1)
        rw [show i + (d + 1) = i + d + 1 by ring, this, ih (by omega)]
    obtain ⟨d, rfl⟩ := Nat.exists_eq_add_of_le hle
    exact hall d le_rfl
  · intro hle hu
    have hz : ∀ x, x < i → SameFiber mesh.rows i x → slopeAfter mesh.rows L a.x x = 0 := by
      intro x
      induction x with
      | zero =>
        intro hx hs
        exact (hstr 0 hs (hu _ hx hs)).symm
      | succ x ih =>
        intro hx hs
        rw [← hstr (x + 1) hs (hu _ hx hs)]
        show slopeAfter mesh.rows L a.x x = 0
        by_cases hn : SameFiber mesh.rows x (x + 1)
        · exact ih (by omega) (htr hs (hsym hn))
        · unfold slopeAfter
          rw [if_neg hn]
    have hall : ∀ d, m + d ≤ i → a.x (2 * (m + d)) = a.x (2 * m) := by
      intro d
      induction d with
      | zero => intro _; rfl
      | succ d ih =>
        intro hd
        have s1 := sameFiber_between hv (hsym him) (by omega : m ≤ m + d) (by omega)
        have s2 := sameFiber_between hv (hsym him) (by omega : m ≤ m + d + 1) (by omega)
        have := hstep (m + d) (htr (hsym s1) s2) (hz _ (by omega) (htr him s1))
        rw [show m + (d + 1) = m + d + 1 by ring, this, ih (by omega)]
    obtain ⟨d, hd⟩ := Nat.exists_eq_add_of_le hle
    have := hall d (by omega)
    rw [← hd] at this
    exact this.symm

end Fibermat
