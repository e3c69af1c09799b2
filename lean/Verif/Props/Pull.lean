import Verif.Spec.Pull
import Verif.Props.Pipeline

/-! # C127: which contacts can pull

Without coupling of displacements and rotations (infinite tensile moduli, the default, or `coupling = 0`) the fibers are chains of springs. -/

set_option linter.unusedSectionVars false

namespace Fibermat
variable {K : Type} [Field K] [LinearOrder K] [IsStrictOrderedRing K]
open Spec

variable {mat : Mat K} {mesh : Mesh K} {lmin lmax : Option K} {coupling : K} {o : Opts K} {perm : Option (List ℕ)}
  {S : Sys K} {recs : List (Rec K)} {stop : Stop}

/-- Forces of the beams on a node, in a motion where rotations do not matter. -/
theorem spring_row {rows : List (MeshRow K)} {c : K} {Km : Coo (Cell K)} {bl : List (Beam K × K)} (has : Assembled mat rows c Km bl) {v : ℕ → K}
    {i : ℕ} (hfree : ∀ p ∈ bl, p.1.i = i ∨ p.1.j = i → c = 0 ∨ (v (2 * p.1.i + 1) = 0 ∧ v (2 * p.1.j + 1) = 0)) (hi : i < rows.length) :
    ∑ s ∈ Finset.range (2 * rows.length), table rows c bl (2 * i) s * v s =
      (bl.map (fun p => stiff0 p.1.fiber p.2 * ((if p.1.i = i then v (2 * p.1.i) - v (2 * p.1.j) else 0) +
        (if p.1.j = i then v (2 * p.1.j) - v (2 * p.1.i) else 0)))).sum := by
  have h := has.bilin (fun k => if k = 2 * i then 1 else 0) v
  rw [Finset.sum_eq_single (2 * i)] at h
  · simp only [if_true, one_mul] at h
    rw [h]
    congr 1
    apply List.map_congr_left
    intro p hpm
    refine (beam_bilin _ _ _ _ _ _ (fun k => if k = 2 * i then 1 else 0) v).trans ?_
    have e1 : ∀ a : ℕ, (2 * a = 2 * i) ↔ (a = i) := fun a => by omega
    have e2 : ∀ a : ℕ, ¬ (2 * a + 1 = 2 * i) := fun a => by omega
    simp only [e1, e2, if_false, zero_mul, add_zero]
    by_cases hend : p.1.i = i ∨ p.1.j = i
    · rcases hfree p hpm hend with rfl | ⟨r1, r2⟩
      · split_ifs <;> ring
      · rw [r1, r2]
        split_ifs <;> ring
    · rw [not_or] at hend
      simp only [hend.1, hend.2, if_false]
      ring
  · intro r _ hr
    apply Finset.sum_eq_zero
    intro s _
    simp [hr]
  · intro hn
    exact absurd (Finset.mem_range.2 (by omega)) hn

/-- Each pair of nodes has its three rows. -/
theorem C127_rows {cs : ConstraintSys K} (hC : constraint mat mesh = .ok cs) {i j : ℕ} (hij : IsPair mesh.rows i j) :
    ∃ q, 3 * q + 2 < cs.C.nrows ∧ ContactRows cs.C q i j := by
  obtain ⟨hs, l, hc⟩ := contacts_of hC
  obtain ⟨q, x, hq, rfl, rfl⟩ := hc.ofPair hij
  have hql := (List.getElem?_eq_some_iff.1 hq).1
  refine ⟨q, by rw [hc.C]; show 3 * q + 2 < 3 * l.length; omega, fun u => ⟨?_, ?_, ?_⟩⟩
  · have := hc.row hq (d := 0) (by omega) u
    simpa using this
  · have := hc.row hq (d := 1) (by omega) u
    simpa using this
  · have := hc.row hq (d := 2) (by omega) u
    simpa using this

/-- The rows determine the pair. -/
theorem rows_contact {cs : ConstraintSys K} {hs : List K} {l : List (Contact K)} (hc : Contacts mat mesh.rows cs hs l) {q i j : ℕ}
    (h : ContactRows cs.C q i j) : ∃ x, l[q]? = some x ∧ x.i = i ∧ x.j = j := by
  by_cases hq : q < l.length
  · refine ⟨l[q], List.getElem?_eq_getElem hq, ?_, ?_⟩
    · have h1 := (h (fun s => if s = 2 * i then 1 else 0)).1
      have h2 := hc.row (List.getElem?_eq_getElem hq) (d := 0) (by omega) (fun s => if s = 2 * i then 1 else 0)
      simp only [add_zero, if_true] at h2
      rw [h1] at h2
      by_contra hne
      rw [if_pos rfl, if_neg (by omega)] at h2
      norm_num at h2
    · have h1 := (h (fun s => if s = 2 * j then 1 else 0)).2.2
      have h2 := hc.row (List.getElem?_eq_getElem hq) (d := 2) (by omega) (fun s => if s = 2 * j then 1 else 0)
      simp only [OfNat.ofNat_ne_zero, OfNat.ofNat_ne_one, if_false] at h2
      rw [h1] at h2
      by_contra hne
      rw [if_pos rfl, if_neg (by omega)] at h2
      norm_num at h2
  · exfalso
    have h1 := (h (fun _ => 1)).2.2
    have h2 : rowDot cs.C (3 * q + 2) (fun _ => 1) = 0 := by
      unfold rowDot
      apply Finset.sum_eq_zero
      intro s _
      rw [hc.C]
      unfold Coo.get
      rw [List.filter_eq_nil_iff.2]
      · simp
      · intro e he
        obtain ⟨p, hp, hpe⟩ := List.mem_flatMap.1 he
        have hlt := List.snd_lt_of_mem_zipIdx hp
        simp only [contactEntries, List.mem_cons, List.not_mem_nil, or_false] at hpe
        rcases hpe with rfl | rfl | rfl | rfl <;> simp <;> omega
    rw [h1] at h2
    norm_num at h2

theorem list_sum_nonpos : ∀ {l : List K}, (∀ y ∈ l, y ≤ 0) → l.sum ≤ 0
  | [], _ => le_rfl
  | y :: l, h => by
    rw [List.sum_cons]
    have h1 := h y (by simp)
    have h2 := list_sum_nonpos (l := l) (fun z hz => h z (by simp [hz]))
    linarith

/-- A node belongs to one pair. -/
theorem pair_unique {rows : List (MeshRow K)} (hcr : ConstraintsReciprocal rows) {a b a' b' : ℕ} (h : IsPair rows a b) (h' : IsPair rows a' b')
    (hs : a = a' ∨ a = b' ∨ b = a' ∨ b = b') : a = a' ∧ b = b' := by
  have key : ∀ {a b : ℕ}, IsPair rows a b → (∀ r, rows[a]? = some r → r.constraint = (b : Int)) ∧ (∀ r, rows[b]? = some r → r.constraint = (a : Int)) ∧
      (∃ r, rows[a]? = some r) ∧ ∃ r, rows[b]? = some r := by
    rintro a b ⟨-, r, hr, hb⟩
    obtain ⟨j, p, hj, hp, hback⟩ := hcr a r hr
    have hjb : j = b := by omega
    subst hjb
    refine ⟨fun r' hr' => ?_, fun r' hr' => ?_, ⟨r, hr⟩, ⟨p, hp⟩⟩
    · rw [hr] at hr'; cases hr'; exact hb
    · rw [hp] at hr'; cases hr'; exact hback
  obtain ⟨k1, k2, ⟨ra, hra⟩, ⟨rb, hrb⟩⟩ := key h
  obtain ⟨k1', k2', -, -⟩ := key h'
  have l1 := h.1
  have l2 := h'.1
  rcases hs with rfl | rfl | rfl | rfl
  · have e1 := k1 _ hra
    have e2 := k1' _ hra
    omega
  · have e1 := k1 _ hra
    have e2 := k2' _ hra
    omega
  · have e1 := k2 _ hrb
    have e2 := k1' _ hrb
    omega
  · have e1 := k2 _ hrb
    have e2 := k2' _ hrb
    omega

/-- Forces of the constraints on a node. -/
theorem contact_column {cs : ConstraintSys K} {hs : List K} {l : List (Contact K)} (hc : Contacts mat mesh.rows cs hs l)
    (hcr : ConstraintsReciprocal mesh.rows) {q : ℕ} {x : Contact K} (hq : l[q]? = some x) {m : ℕ} (hm : m = x.i ∨ m = x.j) (y : ℕ → K) :
    ∑ r ∈ Finset.range (3 * l.length), cs.C.get r (2 * m) * y r =
      (if x.i = m then y (3 * q + 1) - y (3 * q) else 0) + (if x.j = m then y (3 * q + 2) - y (3 * q + 1) else 0) := by
  have hql := (List.getElem?_eq_some_iff.1 hq).1
  have hlt := hc.lt x (List.mem_of_getElem? hq)
  have hm2 : 2 * m < 2 * mesh.rows.length := by rcases hm with rfl | rfl <;> omega
  have hsub : ({3 * q, 3 * q + 1, 3 * q + 2} : Finset ℕ) ⊆ Finset.range (3 * l.length) := by
    intro r hr
    simp only [Finset.mem_insert, Finset.mem_singleton] at hr
    rw [Finset.mem_range]
    omega
  rw [← Finset.sum_subset hsub]
  · rw [Finset.sum_insert (by simp), Finset.sum_insert (by simp), Finset.sum_singleton]
    have e0 := hc.entry hq (d := 0) (by omega) hm2
    have e1 := hc.entry hq (d := 1) (by omega) hm2
    have e2 := hc.entry hq (d := 2) (by omega) hm2
    simp only [add_zero, if_true, one_ne_zero, if_false, OfNat.ofNat_ne_zero, OfNat.ofNat_ne_one] at e0 e1 e2
    have k : ∀ a : ℕ, (2 * a = 2 * m) ↔ (a = m) := fun a => by omega
    simp only [k] at e0 e1 e2
    rw [e0, e1, e2]
    split_ifs <;> ring
  · intro r hr hn
    rw [Finset.mem_range] at hr
    obtain ⟨q', d, hd, rfl⟩ : ∃ q d, d < 3 ∧ r = 3 * q + d := ⟨r / 3, r % 3, by omega, by omega⟩
    have hq' : l[q']? = some l[q'] := List.getElem?_eq_getElem (by omega)
    have hne : q' ≠ q := by
      rintro rfl
      apply hn
      simp only [Finset.mem_insert, Finset.mem_singleton]
      omega
    generalize l[q'] = x' at hq'
    have hno : x'.i ≠ m ∧ x'.j ≠ m := by
      by_contra hcon
      rw [not_and_or, not_not, not_not] at hcon
      have := pair_unique hcr (hc.isPair (List.mem_of_getElem? hq)) (hc.isPair (List.mem_of_getElem? hq')) (by
        rcases hm with rfl | rfl <;> rcases hcon with h | h <;> simp [h])
      apply hne
      have h1 : (l.map (·.i))[q']? = some x'.i := by rw [List.getElem?_map, hq']; rfl
      have h2 : (l.map (·.i))[q]? = some x.i := by rw [List.getElem?_map, hq]; rfl
      have hlen : q' < (l.map (·.i)).length := (List.getElem?_eq_some_iff.1 h1).1
      exact (List.getElem?_inj hlen hc.distinct).1 (by rw [h1, h2, this.1])
    rw [hc.entry hq' hd hm2, if_neg (by omega : ¬ 2 * x'.i = 2 * m), if_neg (by omega : ¬ 2 * x'.j = 2 * m)]
    split_ifs <;> ring

/-- C127: without coupling (infinite tensile moduli, or `coupling = 0`), the force of the floor and of the plate on each node never decreases, and neither does the force of a contact
one of whose nodes rests on the floor or touches the plate. -/
theorem C127_step (h : solve mat mesh lmin lmax coupling o perm = .ok (S, recs, stop)) (hm : GoodMat mat)
    (hv : ValidMesh mesh.frame) (hp : PositiveLengths mesh.rows lmin lmax)
    (hcoup : coupling = 0 ∨ ∀ f ∈ mat.fibers, f.E = ⊤) (htol : 0 ≤ o.tol) (hlin : ExactLin o.lin) (hperm : PermOf S.n perm)
    {cs : ConstraintSys K} (hC : constraint mat mesh = .ok cs)
    (k : ℕ) (a b : Rec K) (ha : recs[k]? = some a) (hb : recs[k + 1]? = some b)
    (hsup : ¬ Unsupported mat mesh.rows o.tol a.Z a.x) {q i j : ℕ} (hq : ContactRows cs.C q i j) :
    a.x (2 * mesh.rows.length + 3 * q) ≤ b.x (2 * mesh.rows.length + 3 * q) ∧
      a.x (2 * mesh.rows.length + (3 * q + 2)) ≤ b.x (2 * mesh.rows.length + (3 * q + 2)) ∧
      (floorGap mat mesh.rows a.x i ≤ o.tol ∨ roofGap mat mesh.rows a.Z a.x j ≤ o.tol →
        a.x (2 * mesh.rows.length + (3 * q + 1)) ≤ b.x (2 * mesh.rows.length + (3 * q + 1))) := by
  have hcr : ConstraintsReciprocal mesh.rows := by have := hv.constraints; rwa [rows_meshFrame] at this
  have hmono := C76_monotone h hm hv hp hcoup htol hlin hperm k a b ha hb hsup
  obtain ⟨v, t, ht, hZ, hx, hf⟩ := step_motion h hm hp htol hlin hperm ha hb
  obtain ⟨Km, bl, hs, l, has, hpos, hbl, hc, rfl, hN, hnK, hn, hnC, hcols, hZ0, hsd, rfl⟩ := solve_lengths h hm hp hC
  obtain ⟨x, hqx, rfl, rfl⟩ := rows_contact hc hq
  have hxm := List.mem_of_getElem? hqx
  have hlt := hc.lt x hxm
  obtain ⟨dx, t', s, hst⟩ := hsd.next ha hb
  have hi := hsd.inv ha
  have htt : t' = t := by
    have := hst.Z
    rw [hZ] at this
    linarith
  subst htt
  have hvd : v = dx := by
    funext r
    have h1 := hst.x r
    rw [hx r] at h1
    have h2 : t' * (v r - dx r) = 0 := by linarith
    have := (mul_eq_zero.1 h2).resolve_left ht.ne'
    linarith
  subst hvd
  have hv01 : ∀ m, m < mesh.rows.length → 0 ≤ v (2 * m) ∧ v (2 * m) ≤ 1 := by
    intro m hm'
    have h1 := hmono m hm'
    rw [hx, hZ] at h1
    constructor
    · by_contra hneg
      have := mul_neg_of_pos_of_neg ht (not_le.1 hneg)
      linarith [h1.1]
    · by_contra hbig
      have := mul_lt_mul_of_pos_left (not_le.1 hbig) ht
      linarith [h1.2]
  have hfree : ∀ p ∈ bl, coupling = 0 ∨ (v (2 * p.1.i + 1) = 0 ∧ v (2 * p.1.j + 1) = 0) := by
    intro p hpm
    refine hcoup.imp_right (fun hE => ?_)
    have hE : p.1.fiber.E = ⊤ := by
      obtain ⟨r, q, -, -, -, -, -, hfb⟩ := (has.beam p hpm).rows
      exact hE _ (List.mem_of_getElem? hfb)
    exact ⟨hsd.dir_frozen hi hst.dir ⟨p, hpm, hE, Or.inl rfl⟩, hsd.dir_frozen hi hst.dir ⟨p, hpm, hE, Or.inr rfl⟩⟩
  -- springs pull back a node that moves as fast as the plate, and push up one that does not move
  have hnode : ∀ p ∈ bl, p.1.i < mesh.rows.length ∧ p.1.j < mesh.rows.length := by
    intro p hpm
    obtain ⟨r, q, h1, h2, -⟩ := (has.beam p hpm).rows
    exact ⟨(List.getElem?_eq_some_iff.1 h1).1, (List.getElem?_eq_some_iff.1 h2).1⟩
  set R : ℕ → K := fun m => ∑ s ∈ Finset.range (2 * mesh.rows.length), table mesh.rows coupling bl (2 * m) s * v s with hR
  have hRtop : ∀ m, m < mesh.rows.length → v (2 * m) = 1 → 0 ≤ R m := by
    intro m hm' h1
    rw [hR]
    simp only
    rw [spring_row has (fun p hpm _ => hfree p hpm) hm']
    apply List.sum_nonneg
    intro y hy
    obtain ⟨p, hpm, rfl⟩ := List.mem_map.1 hy
    have hk := stiff0_pos (has.solid hm p hpm) (hpos p hpm)
    obtain ⟨n1, n2⟩ := hnode p hpm
    have v1 := hv01 _ n1
    have v2 := hv01 _ n2
    apply mul_nonneg hk.le
    apply add_nonneg
    · split_ifs with he
      · rw [he, h1]; linarith [v2.2]
      · exact le_rfl
    · split_ifs with he
      · rw [he, h1]; linarith [v1.2]
      · exact le_rfl
  have hRbot : ∀ m, m < mesh.rows.length → v (2 * m) = 0 → R m ≤ 0 := by
    intro m hm' h1
    rw [hR]
    simp only
    rw [spring_row has (fun p hpm _ => hfree p hpm) hm']
    apply list_sum_nonpos
    intro y hy
    obtain ⟨p, hpm, rfl⟩ := List.mem_map.1 hy
    have hk := stiff0_pos (has.solid hm p hpm) (hpos p hpm)
    obtain ⟨n1, n2⟩ := hnode p hpm
    have v1 := hv01 _ n1
    have v2 := hv01 _ n2
    apply mul_nonpos_of_nonneg_of_nonpos hk.le
    apply add_nonpos
    · split_ifs with he
      · rw [he, h1]; linarith [v2.1]
      · exact le_rfl
    · split_ifs with he
      · rw [he, h1]; linarith [v1.1]
      · exact le_rfl
  have hbal : ∀ m, m = x.i ∨ m = x.j → R m +
      ((if x.i = m then v (2 * mesh.rows.length + (3 * q + 1)) - v (2 * mesh.rows.length + 3 * q) else 0) +
        (if x.j = m then v (2 * mesh.rows.length + (3 * q + 2)) - v (2 * mesh.rows.length + (3 * q + 1)) else 0)) = 0 := by
    intro m hm'
    have hml : m < mesh.rows.length := by rcases hm' with rfl | rfl <;> omega
    have hnf : ¬ Frozen bl (2 * m) := fun hfz => by have := frozen_odd _ hfz; omega
    have h1 := hsd.dir_balance (o := { o with perm := perm.getD (List.range (assemble Km cs).n) }) hlin (permOf_getD hperm) htol ha hst.dir
      (r := 2 * m) (by omega) hnf
    rw [apply_force hn v (by omega), contact_column hc hcr hqx hm' (fun r => v (2 * mesh.rows.length + r))] at h1
    exact h1
  have hoff : ∀ d, d < 3 → ¬ ((d = 1 → x.i ≠ x.j) ∧ geoGap mat mesh.rows a.Z a.x x d ≤ o.tol) → v (2 * mesh.rows.length + (3 * q + d)) = 0 := by
    intro d hd hnot
    apply direction_zero hst.dir
    rw [← Bool.not_eq_true, hc.active hN hsd hn hi hqx hd o.tol]
    exact hnot
  obtain ⟨f0, f1, f2⟩ := hf _ _ (hc.isPair hxm)
  have off0 : ¬ floorGap mat mesh.rows a.x x.i ≤ o.tol → v (2 * mesh.rows.length + 3 * q) = 0 := fun hg =>
    hoff 0 (by omega) (fun hh => hg (by simpa [geoGap] using hh.2))
  have off1 : ¬ (x.i ≠ x.j ∧ pairGap mat mesh.rows a.x x.i x.j ≤ o.tol) → v (2 * mesh.rows.length + (3 * q + 1)) = 0 := fun hg =>
    hoff 1 (by omega) (fun hh => hg ⟨hh.1 rfl, by simpa [geoGap] using hh.2⟩)
  have off2 : ¬ roofGap mat mesh.rows a.Z a.x x.j ≤ o.tol → v (2 * mesh.rows.length + (3 * q + 2)) = 0 := fun hg =>
    hoff 2 (by omega) (fun hh => hg (by simpa [geoGap] using hh.2))
  have bi := hbal x.i (Or.inl rfl)
  have bj := hbal x.j (Or.inr rfl)
  have hix : x.i < mesh.rows.length := by omega
  have hjx : x.j < mesh.rows.length := by omega
  -- rates of the three forces
  have g1 : floorGap mat mesh.rows a.x x.i ≤ o.tol ∨ roofGap mat mesh.rows a.Z a.x x.j ≤ o.tol → v (2 * mesh.rows.length + (3 * q + 1)) ≤ 0 := by
    intro hor
    by_cases hpair : x.i ≠ x.j ∧ pairGap mat mesh.rows a.x x.i x.j ≤ o.tol
    · obtain ⟨hne, hg⟩ := hpair
      have hvij := f1 hne hg
      rw [if_pos rfl, if_neg (fun e => hne e.symm)] at bi
      rw [if_neg hne, if_pos rfl] at bj
      rcases hor with h0 | h2
      · have z0 := f0 h0
        have z1 : v (2 * x.j) = 0 := by rw [← hvij]; exact z0
        have : ¬ roofGap mat mesh.rows a.Z a.x x.j ≤ o.tol := fun hh => by
          have := f2 hh
          rw [z1] at this
          norm_num at this
        have e2 := off2 this
        have := hRbot x.j hjx z1
        rw [e2] at bj
        linarith
      · have z1 := f2 h2
        have z0 : v (2 * x.i) = 1 := by rw [hvij]; exact z1
        have : ¬ floorGap mat mesh.rows a.x x.i ≤ o.tol := fun hh => by
          have := f0 hh
          rw [z0] at this
          norm_num at this
        have e0 := off0 this
        have := hRtop x.i hix z0
        rw [e0] at bi
        linarith
    · rw [off1 hpair]
  have g0 : v (2 * mesh.rows.length + 3 * q) ≤ 0 := by
    by_cases h0 : floorGap mat mesh.rows a.x x.i ≤ o.tol
    · have z0 := f0 h0
      have r0 := hRbot x.i hix z0
      by_cases hne : x.i = x.j
      · have : ¬ roofGap mat mesh.rows a.Z a.x x.j ≤ o.tol := fun hh => by
          have := f2 hh
          rw [← hne, z0] at this
          norm_num at this
        have e2 := off2 this
        have e1 := off1 (fun hh => hh.1 hne)
        rw [if_pos rfl, if_pos hne.symm, e1, e2] at bi
        linarith
      · have := g1 (Or.inl h0)
        rw [if_pos rfl, if_neg (fun e => hne e.symm)] at bi
        linarith
    · rw [off0 h0]
  have g2 : v (2 * mesh.rows.length + (3 * q + 2)) ≤ 0 := by
    by_cases h2 : roofGap mat mesh.rows a.Z a.x x.j ≤ o.tol
    · have z1 := f2 h2
      have r1 := hRtop x.j hjx z1
      by_cases hne : x.i = x.j
      · have : ¬ floorGap mat mesh.rows a.x x.i ≤ o.tol := fun hh => by
          have := f0 hh
          rw [hne, z1] at this
          norm_num at this
        have e0 := off0 this
        have e1 := off1 (fun hh => hh.1 hne)
        rw [if_pos hne, if_pos rfl, e1, e0] at bj
        linarith
      · have := g1 (Or.inr h2)
        rw [if_neg hne, if_pos rfl] at bj
        linarith
    · rw [off2 h2]
  rw [hx, hx, hx]
  have key : ∀ {y z : K}, z ≤ 0 → y ≤ y - t' * z := fun hz => by
    have := mul_nonpos_of_nonneg_of_nonpos ht.le hz
    linarith
  exact ⟨key g0, key g2, fun hor => key (g1 hor)⟩

/-- C127: so the floor and the plate never pull, and neither does a contact one of whose nodes rests on the floor or touches the plate from the start. -/
theorem C127_push (h : solve mat mesh lmin lmax coupling o perm = .ok (S, recs, stop)) (hm : GoodMat mat)
    (hv : ValidMesh mesh.frame) (hp : PositiveLengths mesh.rows lmin lmax)
    (hcoup : coupling = 0 ∨ ∀ f ∈ mat.fibers, f.E = ⊤) (htol : 0 ≤ o.tol) (hlin : ExactLin o.lin) (hperm : PermOf S.n perm)
    {cs : ConstraintSys K} (hC : constraint mat mesh = .ok cs) (hsup : ¬ Unsupported mat mesh.rows o.tol S.Z0 (fun _ => 0))
    {q i j : ℕ} (hq : ContactRows cs.C q i j) (k : ℕ) (a : Rec K) (ha : recs[k]? = some a) :
    0 ≤ a.x (2 * mesh.rows.length + 3 * q) ∧ 0 ≤ a.x (2 * mesh.rows.length + (3 * q + 2)) ∧
      (floorGap mat mesh.rows (fun _ => 0) i ≤ o.tol ∨ roofGap mat mesh.rows S.Z0 (fun _ => 0) j ≤ o.tol →
        0 ≤ a.x (2 * mesh.rows.length + (3 * q + 1))) := by
  obtain ⟨-, a0, ha0, hx0, -, hZ0, -⟩ := C40_itermax h
  have e0 : a0.x = fun _ => 0 := funext hx0
  rw [← e0, ← hZ0] at hsup ⊢
  have hij : IsPair mesh.rows i j := by
    obtain ⟨hs, l, hc⟩ := contacts_of hC
    obtain ⟨x, hqx, rfl, rfl⟩ := rows_contact hc hq
    exact hc.isPair (List.mem_of_getElem? hqx)
  induction k generalizing a with
  | zero =>
    rw [ha] at ha0; cases ha0
    simp only [hx0]
    exact ⟨le_rfl, le_rfl, fun _ => le_rfl⟩
  | succ k ih =>
    have hlt := (List.getElem?_eq_some_iff.1 ha).1
    have hc : recs[k]? = some recs[k] := List.getElem?_eq_getElem (by omega)
    generalize recs[k] = c at hc
    obtain ⟨i0, i2, i1⟩ := ih c hc
    obtain ⟨s0, s2, s1⟩ := C127_step h hm hv hp hcoup htol hlin hperm hC k c a hc ha
      (C77_supported h hm hp htol hlin hperm 0 k (by omega) a0 c ha0 hc hsup) hq
    refine ⟨i0.trans s0, i2.trans s2, fun hor => (i1 hor).trans (s1 ?_)⟩
    obtain ⟨k0, -, k2⟩ := C75_kept h hm hp htol hlin hperm 0 k (by omega) a0 c ha0 hc i j hij
    exact hor.imp (fun hg => by rw [k0 hg]; exact hg) (fun hg => by rw [k2 hg]; exact hg)

variable [FloorRing K] {lp : Linprog K} {m m' : Mat K} {net st : Net K} {periodic : Bool} {threshold : Option K}

/-- C127 along the whole chain: in a planar mat (default `psi`) the floor and the plate never pull, and neither do the contacts of the fibers that rest on the floor or touch the
plate at the place of the contact. -/
theorem C127_chain (hlp : GoodLinprog lp) (h : GoodMat m) (hw : ∀ f ∈ m.fibers, f.w = 0)
    (hn : netNew m periodic = .ok net) (hst : stackNew lp m net threshold = .ok (m', st)) (hth : KeepsTouching m threshold)
    (hmesh : meshNew st = .ok mesh) (hs : solve m' mesh lmin lmax coupling o perm = .ok (S, recs, stop))
    (hp : PositiveLengths mesh.rows lmin lmax) (hcoup : coupling = 0 ∨ ∀ f ∈ m.fibers, f.E = ⊤) (htol : 0 ≤ o.tol) (hlin : ExactLin o.lin)
    (hperm : PermOf S.n perm) {cs : ConstraintSys K} (hC : constraint m' mesh = .ok cs) {q i j : ℕ} (hq : ContactRows cs.C q i j)
    (k : ℕ) (a : Rec K) (ha : recs[k]? = some a) :
    0 ≤ a.x (2 * mesh.rows.length + 3 * q) ∧ 0 ≤ a.x (2 * mesh.rows.length + (3 * q + 2)) ∧
      (floorGap m' mesh.rows (fun _ => 0) i ≤ o.tol ∨ roofGap m' mesh.rows S.Z0 (fun _ => 0) j ≤ o.tol →
        0 ≤ a.x (2 * mesh.rows.length + (3 * q + 1))) := by
  have hne := chain_nonempty hlp h hn hst hmesh hs
  obtain ⟨net', -, -, hm', hsame, -, -, hv, -⟩ := chain_facts hlp h hne hn hst hmesh
  obtain ⟨-, a0, ha0, hx0, -, hZ0, -⟩ := C40_itermax hs
  have hsup := chain_supported hlp h hw hn hst hth hmesh hs hp htol hlin hperm ha0
  rw [hZ0, show a0.x = fun _ => 0 from funext hx0] at hsup
  exact C127_push hs hm' hv hp (hcoup.imp_right (same_tensile hsame)) htol hlin hperm hC hsup hq k a ha

end Fibermat
