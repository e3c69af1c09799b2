import Verif.Lemmas.CoverSolver
import Verif.Lemmas.RelabelMesh
import Verif.Spec.Cover

/-! Systems of the mesh of a repeated mat. -/

set_option linter.unusedSectionVars false
set_option linter.unusedSimpArgs false

namespace Fibermat
variable {K : Type} [Field K] [LinearOrder K] [IsStrictOrderedRing K]
open Spec

variable {φ π : ℕ → ℕ} {m m' : Mat K} {rows rows' : List (MeshRow K)}

theorem Spec.CoverMesh.lt (h : CoverMesh φ rows rows' π) {i : ℕ} (hi : i < rows'.length) : π i < rows.length := by
  obtain ⟨r, hr, -⟩ := h.node i _ (List.getElem?_eq_getElem hi)
  exact (List.getElem?_eq_some_iff.1 hr).1

/-- Order of the nodes of a fiber. -/
theorem Spec.CoverMesh.order (h : CoverMesh φ rows rows' π) (hs : NodesSorted rows) (hs' : NodesSorted rows') (hd : DistinctNodes rows)
    {i j : ℕ} {r p : MeshRow K} (hr : rows'[i]? = some r) (hp : rows'[j]? = some p) (hf : r.fiber = p.fiber) : i < j ↔ π i < π j := by
  have key : ∀ {i j : ℕ} {r p : MeshRow K}, rows'[i]? = some r → rows'[j]? = some p → r.fiber = p.fiber → π i < π j → i < j := by
    intro i j r p hr hp hf hlt
    obtain ⟨r0, hr0, a1, a2, -⟩ := h.node i r hr
    obtain ⟨p0, hp0, b1, b2, -⟩ := h.node j p hp
    have hf0 : r0.fiber = p0.fiber := by rw [a1, b1, hf]
    have hle := sorted_le hs hr0 hp0 hf0 hlt.le
    have hne : r0.s ≠ p0.s := fun e => by
      have := hd _ _ r0 p0 hr0 hp0 hf0 e
      omega
    refine sorted_lt hs' hr hp hf ?_
    rw [a2, b2]
    exact lt_of_le_of_ne hle hne
  refine ⟨fun hij => ?_, key hr hp hf⟩
  rcases Nat.lt_trichotomy (π i) (π j) with hlt | heq | hgt
  · exact hlt
  · have := h.inj i j r p hr hp hf heq
    omega
  · have := key hp hr hf.symm hgt
    omega

/-- Neighbours are copies of neighbours. -/
theorem Spec.CoverMesh.next (h : CoverMesh φ rows rows' π) (hs : NodesSorted rows) (hs' : NodesSorted rows') (hd : DistinctNodes rows)
    {i : ℕ} {r p : MeshRow K} (hr : rows'[i]? = some r) (hp : rows'[i + 1]? = some p) (hf : p.fiber = r.fiber) : π (i + 1) = π i + 1 := by
  have h0 := (h.order hs hs' hd hr hp hf.symm).1 (by omega)
  by_contra hne
  obtain ⟨r0, hr0, a1, -⟩ := h.node i r hr
  obtain ⟨p0, hp0, b1, -⟩ := h.node _ p hp
  have hk : π i + 1 < rows.length := by
    have := (List.getElem?_eq_some_iff.1 hp0).1
    omega
  have hq : rows[π i + 1]? = some (rows[π i + 1]) := List.getElem?_eq_getElem hk
  have x1 := sorted_fiber hs hr0 hq (by omega)
  have x2 := sorted_fiber hs hq hp0 (by omega)
  rw [hf, ← a1] at b1
  obtain ⟨k, q, hkq, hπ, hqf⟩ := h.lift i (π i + 1) r _ hr hq (by omega)
  have y1 := (h.order hs hs' hd hr hkq hqf.symm).2 (by omega)
  have y2 := (h.order hs hs' hd hkq hp (by rw [hqf, hf])).2 (by omega)
  omega

/-- Copies of neighbours on one fiber are neighbours. -/
theorem Spec.CoverMesh.next_up (h : CoverMesh φ rows rows' π) (hs : NodesSorted rows) (hs' : NodesSorted rows') (hd : DistinctNodes rows)
    {i j : ℕ} {r p : MeshRow K} (hr : rows'[i]? = some r) (hp : rows'[j]? = some p) (hf : p.fiber = r.fiber) (e : π j = π i + 1) : j = i + 1 := by
  have h0 := (h.order hs hs' hd hr hp hf.symm).2 (by omega)
  by_contra hne
  have hk : i + 1 < rows'.length := by
    have := (List.getElem?_eq_some_iff.1 hp).1
    omega
  have hq : rows'[i + 1]? = some (rows'[i + 1]) := List.getElem?_eq_getElem hk
  have x1 := sorted_fiber hs' hr hq (by omega)
  have x2 := sorted_fiber hs' hq hp (by omega)
  have y1 := (h.order hs hs' hd hr hq (by omega)).1 (by omega)
  have y2 := (h.order hs hs' hd hq hp (by omega)).1 (by omega)
  omega

/-- Nodes of the copies are distinct. -/
theorem Spec.CoverMesh.distinct (h : CoverMesh φ rows rows' π) (hd : DistinctNodes rows) : DistinctNodes rows' := by
  intro i j r p hr hp hf hs
  obtain ⟨r0, hr0, a1, a2, -⟩ := h.node i r hr
  obtain ⟨p0, hp0, b1, b2, -⟩ := h.node j p hp
  exact h.inj i j r p hr hp hf (hd _ _ r0 p0 hr0 hp0 (by rw [a1, b1, hf]) (by rw [← a2, ← b2, hs]))

/-- A fiber without its place. -/
def placeless (f : Fiber K) : Fiber K := { f with x := 0, y := 0, u := 0, v := 0 }

theorem placeless_eq {f f' : Fiber K} (h : SameButPlace f f') : placeless f' = placeless f := by
  obtain ⟨h1, h2, h3, h4, h5, h6, h7⟩ := h
  simp only [placeless, h1, h2, h3, h4, h5, h6, h7]

/-- A beam whose nodes are numbered otherwise, without the place of its fiber. -/
def coverBeam (π : ℕ → ℕ) (b : Beam K) : Beam K := ⟨π b.i, π b.j, b.l, placeless b.fiber⟩

/-- A beam of the copies is the copy of a beam. -/
theorem Spec.CoverMesh.beam_down (h : CoverMesh φ rows rows' π) (hmm : CoverMat φ m m')
    (hs : NodesSorted rows) (hs' : NodesSorted rows') (hd : DistinctNodes rows)
    (hb : BeamsCyclic rows) (hb' : BeamsCyclic rows') {b : Beam K} (hbm : IsBeamOf m' rows' b) :
    ∃ c, IsBeamOf m rows c ∧ coverBeam id c = coverBeam π b := by
  obtain ⟨r, p, h1, h2, h3, h4, h5, h6⟩ := hbm.rows
  obtain ⟨hj, p0, hp0, hf⟩ := turned_beam_next hb' h1 h3 hbm.lt
  rw [h2] at hp0; cases hp0
  rw [hj] at h2
  have hnext := h.next hs hs' hd h1 h2 hf
  obtain ⟨r0, hr0, a1, a2, -⟩ := h.node _ r h1
  obtain ⟨p0, hp0, b1, b2, -⟩ := h.node _ p h2
  obtain ⟨f, hf0, hsame⟩ := hmm.fiber _ _ h6
  rw [hnext] at hp0
  refine ⟨⟨π b.i, π b.j, b.l, f⟩, ⟨?_, r0, p0, hr0, ?_, ?_, ?_, ?_, ?_⟩, ?_⟩
  · show π b.i < π b.j
    rw [hj, hnext]; omega
  · show rows[π b.j]? = some p0
    rw [hj, hnext]; exact hp0
  · show r0.beam = (π b.j : Int)
    rw [hj, hnext]
    exact next_beam hb hr0 hp0 (by rw [a1, b1, hf])
  · show b.l = _
    rw [h4, a2, b2]
  · rw [a1]; omega
  · show m.fibers[r0.fiber.toNat]? = some f
    rw [a1, Int.toNat_natCast]; exact hf0
  · simp only [coverBeam, placeless_eq hsame, id]

/-- A beam has a copy at each copy of its first node. -/
theorem Spec.CoverMesh.beam_up (h : CoverMesh φ rows rows' π) (hmm : CoverMat φ m m') (hof' : OverFibers m' rows')
    (hs : NodesSorted rows) (hs' : NodesSorted rows') (hd : DistinctNodes rows)
    (hb : BeamsCyclic rows) (hb' : BeamsCyclic rows') {c : Beam K} (hc : IsBeamOf m rows c) {i : ℕ} (hi : i < rows'.length)
    (e : π i = c.i) : ∃ b, IsBeamOf m' rows' b ∧ b.i = i ∧ coverBeam π b = coverBeam id c := by
  obtain ⟨r, p, h1, h2, h3, h4, h5, h6⟩ := hc.rows
  obtain ⟨hj, p0, hp0, hf⟩ := turned_beam_next hb h1 h3 hc.lt
  rw [h2] at hp0; cases hp0
  have hr' : rows'[i]? = some rows'[i] := List.getElem?_eq_getElem hi
  obtain ⟨r0, hr0, a1, a2, -⟩ := h.node _ _ hr'
  rw [e, h1] at hr0; cases hr0
  obtain ⟨j, p', hp', hπ, hpf⟩ := h.lift i c.j _ p hr' h2 (by rw [hf, a1])
  have hji := h.next_up hs hs' hd hr' hp' hpf (by rw [hπ, hj, e])
  obtain ⟨q0, hq0, b1, b2, -⟩ := h.node _ _ hp'
  rw [hπ, h2] at hq0; cases hq0
  have ho := hof' _ (List.mem_of_getElem? hr')
  have hlt' : (rows'[i]).fiber.toNat < m'.fibers.length := by omega
  obtain ⟨f', hf'⟩ : ∃ f', m'.fibers[(rows'[i]).fiber.toNat]? = some f' := ⟨_, List.getElem?_eq_getElem hlt'⟩
  obtain ⟨f, hf0, hsame⟩ := hmm.fiber _ _ hf'
  rw [a1, Int.toNat_natCast, hf0] at h6
  cases h6
  refine ⟨⟨i, j, c.l, f'⟩, ⟨by show i < j; omega, _, p', hr', hp', ?_, ?_, ho.1, hf'⟩, rfl, ?_⟩
  · show _ = (j : Int)
    rw [hji]
    rw [hji] at hp'
    exact next_beam hb' hr' hp' hpf
  · show c.l = _
    rw [h4, a2, b2]
  · simp only [coverBeam, placeless_eq hsame, id, e, hπ]

theorem sum_filter_zero {α : Type} (p : α → Bool) (g : α → Cell K) (l : List α) (h : ∀ x ∈ l, p x = false → g x = 0) :
    (l.map g).sum = ((l.filter p).map g).sum := by
  induction l with
  | nil => rfl
  | cons a t ih =>
    rw [List.map_cons, List.sum_cons, ih (fun x hx => h x (List.mem_cons_of_mem _ hx))]
    by_cases hp : p a = true
    · rw [List.filter_cons_of_pos hp, List.map_cons, List.sum_cons]
    · rw [List.filter_cons_of_neg hp, h a (by simp) (by simpa using hp), zero_add]

theorem npMin_same {l l' : List K} (h : ∀ x, x ∈ l' ↔ x ∈ l) {a a' : K} (ha : npMin l = .ok a) (ha' : npMin l' = .ok a') : a' = a := by
  obtain ⟨h1, h2⟩ := npMin_le ha
  obtain ⟨h3, h4⟩ := npMin_le ha'
  exact le_antisymm (h4 _ ((h _).2 h1)) (h2 _ ((h _).1 h3))

theorem npMax_same {l l' : List K} (h : ∀ x, x ∈ l' ↔ x ∈ l) {a a' : K} (ha : npMax l = .ok a) (ha' : npMax l' = .ok a') : a' = a := by
  obtain ⟨h1, h2⟩ := npMax_ge ha
  obtain ⟨h3, h4⟩ := npMax_ge ha'
  exact le_antisymm (h2 _ ((h _).1 h3)) (h4 _ ((h _).2 h1))

/-- Beams with the same raw lengths are rescaled in the same way. -/
theorem cover_lengths {bs bs' : List (Beam K)} {lmin lmax : Option K} {ls ls' : List K}
    (hsame : ∀ x, x ∈ bs'.map (·.l) ↔ x ∈ bs.map (·.l)) (hr : rescale lmin lmax (bs.map (·.l)) = .ok ls)
    (hr' : rescale lmin lmax (bs'.map (·.l)) = .ok ls') :
    ∃ F : K → K, bs.zip ls = bs.map (fun b => (b, F b.l)) ∧ bs'.zip ls' = bs'.map (fun b => (b, F b.l)) := by
  obtain ⟨a, b, lo, hi, h1, h2, h3, h4, rfl⟩ := rescale_eq hr
  obtain ⟨a', b', lo', hi', g1, g2, g3, g4, rfl⟩ := rescale_eq hr'
  have ea := npMin_same hsame h1 g1
  have eb := npMax_same hsame h2 g2
  subst ea eb h3 h4 g3 g4
  refine ⟨interp2 (min a' (lmin.getD a')) (max b' (lmax.getD b')) (lmin.getD a') (lmax.getD b'), ?_, ?_⟩
  · rw [List.map_map, zip_map_self]; rfl
  · rw [List.map_map, zip_map_self]; rfl

theorem beams_get (n : ℕ) (c : K) (bl : List (Beam K × K)) (r s : ℕ) :
    Coo.get ⟨n, n, bl.flatMap (fun p => beamEntries p.1.i p.1.j (coeffs p.1.fiber p.2 c))⟩ r s =
      (bl.map (fun p => Fibermat.beamVal p.1.i p.1.j (coeffs p.1.fiber p.2 c) r s)).sum := by
  rw [cell_get_sum]
  induction bl with
  | nil => rfl
  | cons p t ih =>
    simp only [List.flatMap_cons, List.map_append, List.sum_append, List.map_cons, List.sum_cons, ih]
    rfl

/-- Fiber of a node. -/
def fiberAt (rows : List (MeshRow K)) (i : ℕ) : Option ℤ := (rows[i]?).map (·.fiber)

theorem beam_fiber (hb : BeamsCyclic rows) {b : Beam K} (hbm : IsBeamOf m rows b) : fiberAt rows b.j = fiberAt rows b.i := by
  obtain ⟨r, p, h1, h2, h3, -⟩ := hbm.rows
  obtain ⟨-, p0, hp0, hf⟩ := turned_beam_next hb h1 h3 hbm.lt
  rw [h2] at hp0; cases hp0
  simp only [fiberAt, h1, h2, Option.map_some, hf]

/-- Nodes of two fibers are not joined. -/
theorem stiffness_apart {mesh : Mesh K} (hb : BeamsCyclic mesh.rows) {lmin lmax : Option K} {c : K} {Km : Coo (Cell K)}
    (hK : Fibermat.stiffness m mesh lmin lmax c = .ok Km) {i j e g : ℕ} (he : e < 2) (hg : g < 2)
    (h : fiberAt mesh.rows i ≠ fiberAt mesh.rows j) : Km.get (2 * i + e) (2 * j + g) = 0 := by
  obtain ⟨-, -, bs, ls, hbs, hr, rfl⟩ := stiffness_eq hK
  rw [beams_get]
  apply List.sum_eq_zero
  intro x hx
  obtain ⟨p, hp, rfl⟩ := List.mem_map.1 hx
  have hB := (beams_spec hbs).1 _ (List.of_mem_zip hp).1
  have hf := beam_fiber hb hB
  refine beamVal_zero _ he hg ?_
  by_cases h1 : p.1.i = i ∨ p.1.j = i
  · right
    have e1 : fiberAt mesh.rows p.1.i = fiberAt mesh.rows i := by
      rcases h1 with h1 | h1
      · rw [h1]
      · rw [← hf, h1]
    refine ⟨fun e => h ?_, fun e => h ?_⟩
    · rw [← e1, e]
    · rw [← e1, ← hf, e]
  · push Not at h1
    exact Or.inl h1

/-- Raw lengths of the beams of the copies. -/
theorem Spec.CoverMesh.raw (h : CoverMesh φ rows rows' π) (hmm : CoverMat φ m m') (hof' : OverFibers m' rows')
    (hs : NodesSorted rows) (hs' : NodesSorted rows') (hd : DistinctNodes rows)
    (hb : BeamsCyclic rows) (hb' : BeamsCyclic rows') {bs bs' : List (Beam K)} (hbs : beams m rows = .ok bs)
    (hbs' : beams m' rows' = .ok bs') (x : K) : x ∈ bs'.map (·.l) ↔ x ∈ bs.map (·.l) := by
  obtain ⟨s1, s2, s3⟩ := beams_spec hbs
  obtain ⟨t1, t2, t3⟩ := beams_spec hbs'
  rw [List.mem_map, List.mem_map]
  constructor
  · rintro ⟨b, hbm, rfl⟩
    obtain ⟨c, hc, e⟩ := h.beam_down hmm hs hs' hd hb hb' (t1 b hbm)
    obtain ⟨r, p, g1, g2, g3, -⟩ := hc.rows
    have hlt := hc.lt
    obtain ⟨c', hc', hce⟩ := s2 c.i ⟨r, g1, by omega⟩
    rw [isBeam_unique (s1 c' hc') hc hce] at hc'
    exact ⟨c, hc', show (coverBeam id c).l = (coverBeam π b).l by rw [e]⟩
  · rintro ⟨c, hcm, rfl⟩
    obtain ⟨r, p, g1, g2, g3, -⟩ := (s1 c hcm).rows
    obtain ⟨i, hi, ei⟩ := h.surj c.i (List.getElem?_eq_some_iff.1 g1).1
    obtain ⟨b, hB, -, e⟩ := h.beam_up hmm hof' hs hs' hd hb hb' (s1 c hcm) hi ei
    obtain ⟨r, p, g1, g2, g3, -⟩ := hB.rows
    have hlt := hB.lt
    obtain ⟨b', hb', hbe⟩ := t2 b.i ⟨r, g1, by omega⟩
    rw [isBeam_unique (t1 b' hb') hB hbe] at hb'
    exact ⟨b, hb', show (coverBeam π b).l = (coverBeam id c).l by rw [e]⟩

/-- Entries of the stiffness matrix between nodes of one copy of a fiber; lengths are positive if those of the cell are. -/
theorem Spec.CoverMesh.stiffness {mesh mesh' : Mesh K} (h : CoverMesh φ mesh.rows mesh'.rows π) (hmm : CoverMat φ m m')
    (hof' : OverFibers m' mesh'.rows) (hs : NodesSorted mesh.rows) (hs' : NodesSorted mesh'.rows) (hd : DistinctNodes mesh.rows)
    (hb : BeamsCyclic mesh.rows) (hb' : BeamsCyclic mesh'.rows) {lmin lmax : Option K} {c : K} {Km Km' : Coo (Cell K)}
    (hK : Fibermat.stiffness m mesh lmin lmax c = .ok Km) (hK' : Fibermat.stiffness m' mesh' lmin lmax c = .ok Km') :
    ∀ (i j : ℕ) (r p : MeshRow K), mesh'.rows[i]? = some r → mesh'.rows[j]? = some p → r.fiber = p.fiber → ∀ e g, e < 2 → g < 2 →
      Km'.get (2 * i + e) (2 * j + g) = Km.get (2 * π i + e) (2 * π j + g) := by
  obtain ⟨-, -, bs, ls, hbs, hr, rfl⟩ := stiffness_eq hK
  obtain ⟨-, -, bs', ls', hbs', hr', rfl⟩ := stiffness_eq hK'
  obtain ⟨s1, s2, s3⟩ := beams_spec hbs
  obtain ⟨t1, t2, t3⟩ := beams_spec hbs'
  obtain ⟨F, e1, e2⟩ := cover_lengths (h.raw hmm hof' hs hs' hd hb hb' hbs hbs') hr hr'
  intro i j r p hri hpj hf e g he hg
  obtain ⟨r0, hr0, ar, -⟩ := h.node i r hri
  obtain ⟨p0, hp0, ap, -⟩ := h.node j p hpj
  have hfi : fiberAt mesh'.rows i = some r.fiber := by simp [fiberAt, hri]
  have hfj : fiberAt mesh'.rows j = some r.fiber := by simp [fiberAt, hpj, hf]
  have hfi0 : fiberAt mesh.rows (π i) = some r0.fiber := by simp [fiberAt, hr0]
  have hfj0 : fiberAt mesh.rows (π j) = some r0.fiber := by simp [fiberAt, hp0, ap, ar, hf]
  rw [beams_get, beams_get, e1, e2, List.map_map, List.map_map]
  rw [sum_filter_zero (fun b => decide (fiberAt mesh'.rows b.i = some r.fiber)) _ bs',
    sum_filter_zero (fun b => decide (fiberAt mesh.rows b.i = some r0.fiber)) _ bs]
  · let G : Beam K → Cell K := fun b => beamVal b.i b.j (coeffs b.fiber (F b.l) c) (2 * π i + e) (2 * π j + g)
    have hperm : ((bs'.filter (fun b => decide (fiberAt mesh'.rows b.i = some r.fiber))).map (coverBeam π)).Perm
        ((bs.filter (fun b => decide (fiberAt mesh.rows b.i = some r0.fiber))).map (coverBeam id)) := by
      refine (List.perm_ext_iff_of_nodup ?_ ?_).2 ?_
      · refine List.Nodup.map_on ?_ ((List.Nodup.of_map _ t3).filter _)
        intro x hx y hy exy
        obtain ⟨x1, x2⟩ := List.mem_filter.1 hx
        obtain ⟨y1, y2⟩ := List.mem_filter.1 hy
        have x2 := of_decide_eq_true x2
        have y2 := of_decide_eq_true y2
        simp only [fiberAt, Option.map_eq_some_iff] at x2 y2
        obtain ⟨xr, xr1, xr2⟩ := x2
        obtain ⟨yr, yr1, yr2⟩ := y2
        have := h.inj _ _ xr yr xr1 yr1 (by rw [xr2, yr2]) (congrArg Beam.i exy)
        exact isBeam_unique (t1 x x1) (t1 y y1) this
      · refine List.Nodup.map_on ?_ ((List.Nodup.of_map _ s3).filter _)
        intro x hx y hy exy
        exact isBeam_unique (s1 x (List.mem_filter.1 hx).1) (s1 y (List.mem_filter.1 hy).1)
          (show (coverBeam id x).i = (coverBeam id y).i by rw [exy])
      · intro b0
        rw [List.mem_map, List.mem_map]
        constructor
        · rintro ⟨b, hbm, rfl⟩
          obtain ⟨x1, x2⟩ := List.mem_filter.1 hbm
          have x2 := of_decide_eq_true x2
          obtain ⟨q, hq, ec⟩ := h.beam_down hmm hs hs' hd hb hb' (t1 b x1)
          obtain ⟨r1, p1, g1, g2, g3, -⟩ := hq.rows
          have hlt := hq.lt
          obtain ⟨q', hq', hce⟩ := s2 q.i ⟨r1, g1, by omega⟩
          rw [isBeam_unique (s1 q' hq') hq hce] at hq'
          refine ⟨q, List.mem_filter.2 ⟨hq', decide_eq_true ?_⟩, ec⟩
          have : q.i = π b.i := congrArg Beam.i ec
          simp only [fiberAt, Option.map_eq_some_iff] at x2
          obtain ⟨xr, xr1, xr2⟩ := x2
          obtain ⟨y0, hy0, ay, -⟩ := h.node _ xr xr1
          rw [this, fiberAt, hy0, Option.map_some, ay, xr2, ar]
        · rintro ⟨q, hqm, rfl⟩
          obtain ⟨x1, x2⟩ := List.mem_filter.1 hqm
          have x2 := of_decide_eq_true x2
          simp only [fiberAt, Option.map_eq_some_iff] at x2
          obtain ⟨xr, xr1, xr2⟩ := x2
          obtain ⟨k, y, hy, hπ, hyf⟩ := h.lift i q.i r xr hri xr1 (by rw [xr2, ar])
          obtain ⟨b, hB, hbi, ec⟩ := h.beam_up hmm hof' hs hs' hd hb hb' (s1 q x1) (List.getElem?_eq_some_iff.1 hy).1 hπ
          obtain ⟨r1, p1, g1, g2, g3, -⟩ := hB.rows
          have hlt := hB.lt
          obtain ⟨b', hb', hbe⟩ := t2 b.i ⟨r1, g1, by omega⟩
          rw [isBeam_unique (t1 b' hb') hB hbe] at hb'
          refine ⟨b, List.mem_filter.2 ⟨hb', decide_eq_true ?_⟩, ec⟩
          rw [hbi, fiberAt, hy, Option.map_some, hyf]
    have hsum := (hperm.map G).sum_eq
    rw [List.map_map, List.map_map] at hsum
    refine Eq.trans ?_ (hsum.trans ?_)
    · congr 1
      refine List.map_congr_left ?_
      intro b hbm
      obtain ⟨x1, x2⟩ := List.mem_filter.1 hbm
      have x2 := of_decide_eq_true x2
      have x3 := beam_fiber hb' (t1 b x1)
      rw [x2] at x3
      have inj : ∀ x y, fiberAt mesh'.rows x = some r.fiber → fiberAt mesh'.rows y = some r.fiber → (x = y ↔ π x = π y) := by
        intro x y hx hy
        simp only [fiberAt, Option.map_eq_some_iff] at hx hy
        obtain ⟨xr, xr1, xr2⟩ := hx
        obtain ⟨yr, yr1, yr2⟩ := hy
        exact ⟨fun e => by rw [e], h.inj x y xr yr xr1 yr1 (by rw [xr2, yr2])⟩
      exact beamVal_same _ he hg (inj _ _ x2 hfi) (inj _ _ x3 hfi) (inj _ _ x2 hfj) (inj _ _ x3 hfj)
    · rfl
  · intro b hbm hne
    have hne := of_decide_eq_false hne
    have hfb := beam_fiber hb (s1 b hbm)
    refine beamVal_zero _ he hg (Or.inl ⟨fun e => hne (by rw [e, hfi0]), fun e => hne (by rw [← hfb, e, hfi0])⟩)
  · intro b hbm hne
    have hne := of_decide_eq_false hne
    have hfb := beam_fiber hb' (t1 b hbm)
    refine beamVal_zero _ he hg (Or.inl ⟨fun e => hne (by rw [e, hfi]), fun e => hne (by rw [← hfb, e, hfi])⟩)

end Fibermat
