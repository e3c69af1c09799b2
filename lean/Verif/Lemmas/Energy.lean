import Verif.Spec.Energy
import Verif.Lemmas.SolverAssembly
import Mathlib.Tactic.FieldSimp

/-! The assembled matrix in terms of the documented element matrices. -/

set_option linter.unusedSectionVars false
set_option linter.unusedSimpArgs false

namespace Fibermat
variable {K : Type} [Field K] [LinearOrder K] [IsStrictOrderedRing K]
open Spec

theorem interp2_linear {x0 x1 y0 y1 t : K} (h0 : x0 ≤ t) (h1 : t ≤ x1) :
    (x0 < x1 → interp2 x0 x1 y0 y1 t = y0 + (y1 - y0) * ((t - x0) / (x1 - x0))) ∧ (x0 = x1 → interp2 x0 x1 y0 y1 t = y1) := by
  unfold interp2
  constructor
  · intro h
    have hd : x1 - x0 ≠ 0 := by linarith
    split_ifs with a b
    · have : t = x1 := le_antisymm h1 a
      subst this; field_simp; ring
    · subst b; simp
    · field_simp; ring
  · intro h
    rw [if_pos (by rw [← h]; exact h0)]

/-- The beams of a call of `stiffness` with the lengths given by the specification. -/
theorem assembled_lengths {mat : Mat K} {mesh : Mesh K} {lmin lmax : Option K} {c : K} {Km : Coo (Cell K)}
    (h : stiffness mat mesh lmin lmax c = .ok Km) :
    ∃ bl : List (Beam K × K), Assembled mat mesh.rows c Km bl ∧
      (PositiveLengths mesh.rows lmin lmax → ∀ p ∈ bl, 0 < p.2) ∧
      (∃ m M, RawBounds mesh.rows m M) ∧
      ∀ L, BeamLengths mesh.rows lmin lmax L ↔ ∀ p ∈ bl, p.2 = L p.1.i := by
  obtain ⟨-, -, bs, ls, hb, hr, rfl⟩ := stiffness_eq h
  obtain ⟨h1, h2, h3⟩ := beams_spec hb
  have hlen : ls.length = bs.length := by simpa using rescale_length hr
  have hmap : (bs.zip ls).map Prod.fst = bs := List.map_fst_zip (by omega)
  have hraw : ∀ q ∈ bs, StartsBeam mesh.rows q.i ∧ q.l = beamLength mesh.rows q.i := by
    intro q hq
    obtain ⟨hlt, r, p, hr, hp', hj, hl, -, -⟩ := h1 q hq
    refine ⟨⟨r, hr, by omega⟩, ?_⟩
    simp [beamLength, abscissa, succNode, hr, hj, hp', hl]
  obtain ⟨m, M, lo, hi, hm, hM, hlo, hhi, hls⟩ := rescale_eq hr
  obtain ⟨m1, m2⟩ := npMin_le hm
  obtain ⟨M1, M2⟩ := npMax_ge hM
  have hset : {x | ∃ i, StartsBeam mesh.rows i ∧ x = beamLength mesh.rows i} = {x | x ∈ bs.map (·.l)} := by
    ext x
    simp only [Set.mem_setOf_eq, List.mem_map]
    constructor
    · rintro ⟨i, hi, rfl⟩
      obtain ⟨b, hb, rfl⟩ := h2 i hi
      exact ⟨b, hb, (hraw b hb).2⟩
    · rintro ⟨b, hb, rfl⟩
      exact ⟨b.i, (hraw b hb).1, (hraw b hb).2⟩
  have hbounds : RawBounds mesh.rows m M := by
    constructor <;> rw [hset]
    · exact ⟨m1, m2⟩
    · exact ⟨M1, M2⟩
  refine ⟨bs.zip ls, ⟨rfl, ?_, ?_, ?_⟩, ?_, ⟨m, M, hbounds⟩, ?_⟩
  · intro p hp; exact h1 _ (List.of_mem_zip hp).1
  · intro i hi
    obtain ⟨b, hb, rfl⟩ := h2 i hi
    rw [← hmap] at hb
    obtain ⟨p, hp, rfl⟩ := List.mem_map.1 hb
    exact ⟨p, hp, rfl⟩
  · have : (bs.zip ls).map (·.1.i) = bs.map (·.i) := by
      conv_rhs => rw [← hmap]
      rw [List.map_map]; rfl
    rw [this]; exact h3
  · intro hp p hpm
    exact rescale_pos hp hb hr p.2 (List.of_mem_zip hpm).2
  · have hz : ∀ p ∈ bs.zip ls, p.1 ∈ bs ∧ p.2 = interp2 (min m lo) (max M hi) lo hi p.1.l := by
      intro p hp
      refine ⟨(List.of_mem_zip hp).1, ?_⟩
      rw [hls, List.map_map, List.zip_map_right, List.mem_map] at hp
      obtain ⟨q, hq, rfl⟩ := hp
      have : q.1 = q.2 := by
        clear * - hq
        induction bs with
        | nil => simp at hq
        | cons x l ih =>
          simp only [List.zip_cons_cons, List.mem_cons] at hq
          rcases hq with rfl | hq
          · rfl
          · exact ih hq
      obtain ⟨q1, q2⟩ := q
      simp only at this
      subst this
      rfl
    have hin : ∀ q ∈ bs, min m lo ≤ q.l ∧ q.l ≤ max M hi := by
      intro q hq
      have hx : q.l ∈ bs.map (·.l) := List.mem_map_of_mem hq
      exact ⟨(min_le_left _ _).trans (m2 _ hx), (M2 _ hx).trans (le_max_left _ _)⟩
    intro L
    constructor
    · intro hL p hp
      obtain ⟨hq, e⟩ := hz p hp
      obtain ⟨g1, g2⟩ := hL m M hbounds p.1.i (hraw _ hq).1
      rw [← hlo, ← hhi, ← (hraw _ hq).2] at g1
      rw [← hlo, ← hhi] at g2
      obtain ⟨i1, i2⟩ := hin _ hq
      obtain ⟨e1, e2⟩ := interp2_linear (y0 := lo) (y1 := hi) i1 i2
      rw [e]
      rcases lt_or_eq_of_le (i1.trans i2) with hlt | heq
      · rw [e1 hlt, g1 hlt]
      · rw [e2 heq, g2 heq]
    · intro hL m' M' hb' i hi'
      have em : m' = m := hb'.least.unique hbounds.least
      have eM : M' = M := hb'.greatest.unique hbounds.greatest
      subst em eM
      obtain ⟨b, hbm, rfl⟩ := h2 i hi'
      have hbm' := hbm
      rw [← hmap] at hbm'
      obtain ⟨p, hp, rfl⟩ := List.mem_map.1 hbm'
      rw [← hL p hp, (hz p hp).2, ← hlo, ← hhi, ← (hraw _ hbm).2]
      obtain ⟨i1, i2⟩ := hin _ hbm
      exact interp2_linear i1 i2

variable {mat : Mat K} {rows : List (MeshRow K)} {c : K} {Km : Coo (Cell K)} {bl : List (Beam K × K)}

theorem IsBeamOf.data {b : Beam K} (hb : IsBeamOf mat rows b) :
    StartsBeam rows b.i ∧ succNode rows b.i = b.j ∧ nodeFiber mat rows b.i = some b.fiber := by
  obtain ⟨r, p, h1, h2, h3, h4, h5, h6⟩ := hb.rows
  have := hb.lt
  refine ⟨⟨r, h1, by omega⟩, ?_, ?_⟩
  · simp [succNode, h1, h3]
  · simp [nodeFiber, h1, h6]

/-- A sum over the beams is a sum over the nodes that start one. -/
theorem Assembled.sum_nodes (ha : Assembled mat rows c Km bl) {g : Beam K × K → K} {F : ℕ → K}
    (hg : ∀ p ∈ bl, g p = F p.1.i) : (bl.map g).sum =
      open Classical in ∑ i ∈ Finset.range rows.length, if StartsBeam rows i then F i else 0 := by
  classical
  have e : (bl.map g).sum = ((bl.map (·.1.i)).map F).sum := by
    rw [List.map_map]
    congr 1
    exact List.map_congr_left hg
  rw [e, ← List.sum_toFinset _ ha.nodup, ← Finset.sum_filter]
  congr 1
  ext i
  simp only [List.mem_toFinset, List.mem_map, Finset.mem_filter, Finset.mem_range]
  constructor
  · rintro ⟨p, hp, rfl⟩
    exact ⟨(ha.lt p hp).1, (ha.beam p hp).data.1⟩
  · rintro ⟨-, hs⟩
    obtain ⟨p, hp, rfl⟩ := ha.all i hs
    exact ⟨p, hp, rfl⟩

theorem sectionArea_pos {f : Fiber K} (hf : Solid f) : 0 < sectionArea f := by
  unfold sectionArea
  have := npPi_pos' (K := K)
  have := hf.b
  have := hf.h
  positivity

theorem Solid.E_pos {f : Fiber K} (hf : Solid f) {e : K} (hE : f.E = some e) : 0 < e := by
  have h := hf.E
  rw [hE] at h
  exact WithTop.coe_lt_coe.1 h

theorem stiff0_eq {f : Fiber K} (hf : Solid f) {l : K} (hl : 0 < l) : stiff0 f l = transverse f l := by
  have hA := sectionArea_pos hf
  have hG := hf.G
  have hh := hf.h
  have e : npPi / 4 * (f.G * f.b * f.h) = f.G * sectionArea f := by unfold sectionArea; ring
  unfold stiff0 transverse slender
  rw [e]
  rcases hE : f.E with _ | m
  · simp
  · have hm := hf.E_pos hE
    simp only
    field_simp

theorem stiff0_doc {f : Fiber K} (hf : Solid f) {l e : K} (hE : f.E = some e) :
    stiff0 f l = f.G * sectionArea f / l / (1 + f.G / e * (l / f.h) ^ 2) := by
  unfold stiff0 slender sectionArea
  rw [hE]
  simp only
  ring

/-- The triplets of one beam are the documented element matrix. -/
theorem numEntries_doc {f : Fiber K} (hf : Solid f) {l e : K} (hE : f.E = some e) (c : K) (i j r s : ℕ) :
    ((numEntries i j (stiff0 f l) (stiff0 f l * l / 2 * c) (stiff2 f l) (stiff2 f l - stiff0 f l * (l * l) / 2)).map
      (fun t => if t.1 = r ∧ t.2.1 = s then t.2.2 else 0)).sum =
    ∑ a ∈ Finset.range 4, ∑ b ∈ Finset.range 4,
      if (elementDofs i j).getD a 0 = r ∧ (elementDofs i j).getD b 0 = s then entry (elementMatrix f e l c) a b else 0 := by
  have h2 : stiff2 f l = stiff0 f l * (l ^ 2 / 3 + e / f.G * f.h ^ 2) := by
    unfold stiff2 tensile; rw [hE]; simp only; ring
  have h4 : -(stiff2 f l - stiff0 f l * (l * l) / 2) = stiff0 f l * (l ^ 2 / 6 - e / f.G * f.h ^ 2) := by rw [h2]; ring
  have h1 : stiff0 f l * l / 2 * c = stiff0 f l * (c * (l / 2)) := by ring
  simp only [numEntries, h4]
  simp only [h1, h2]
  simp only [Finset.sum_range_succ, Finset.sum_range_zero, elementDofs, entry, elementMatrix, List.getD_cons_zero,
    List.getD_cons_succ, ← stiff0_doc hf hE, List.map_cons, List.map_nil, List.sum_cons, List.sum_nil, mul_one, mul_neg]
  abel

theorem Assembled.table_doc (ha : Assembled mat rows c Km bl) (hm : GoodMat mat) (ht : FiniteTensile mat) {L : ℕ → K}
    (hL : ∀ p ∈ bl, p.2 = L p.1.i) (r s : ℕ) : table rows c bl r s = assembledEntry mat rows c L r s := by
  unfold table allEntries assembledEntry
  rw [get_sum_ite, sum_map_flatMap]
  apply ha.sum_nodes
  intro p hp
  obtain ⟨-, h2, h3⟩ := (ha.beam p hp).data
  obtain ⟨q, q', -, -, -, -, -, hf⟩ := (ha.beam p hp).rows
  obtain ⟨e, hE⟩ := WithTop.ne_top_iff_exists.1 (ht _ (List.mem_of_getElem? hf))
  have hE : p.1.fiber.E = some e := hE.symm
  simp only [h2, h3, hE]
  rw [← hL p hp]
  exact numEntries_doc (ha.solid hm p hp) hE c _ _ r s

theorem beamEnergy_doc {p : Beam K × K} (hf : Solid p.1.fiber) (hl : 0 < p.2) (c : K) (u : ℕ → K) :
    beamEnergy c u p = elementEnergy p.1.fiber p.2 c (u (2 * p.1.i)) (u (2 * p.1.i + 1)) (u (2 * p.1.j)) (u (2 * p.1.j + 1)) := by
  unfold beamEnergy elementEnergy
  rw [stiff0_eq hf hl]
  unfold tensile
  rcases hE : p.1.fiber.E with _ | e <;> simp only <;> ring

theorem Assembled.energy_doc (ha : Assembled mat rows c Km bl) (hm : GoodMat mat) (hp : ∀ p ∈ bl, 0 < p.2) {L : ℕ → K}
    (hL : ∀ p ∈ bl, p.2 = L p.1.i) (u : ℕ → K) :
    energy (2 * rows.length) (table rows c bl) u = elasticEnergy mat rows c L u := by
  rw [ha.energy_eq]
  unfold elasticEnergy
  apply ha.sum_nodes
  intro p hpm
  obtain ⟨-, h2, h3⟩ := (ha.beam p hpm).data
  simp only [h2, h3]
  rw [beamEnergy_doc (ha.solid hm p hpm) (hp p hpm), ← hL p hpm]

/-- A sum of cells that is a number has only numbers. -/
theorem sum_eq_fin {l : List (Cell K)} {x : K} (h : l.sum = .fin x) : ∀ y ∈ l, ∃ a, y = .fin a := by
  induction l generalizing x with
  | nil => simp
  | cons y l ih =>
    rw [List.sum_cons] at h
    have : ∃ a b, y = .fin a ∧ l.sum = .fin b := by
      cases y <;> cases hs : l.sum <;> rw [hs] at h <;> first | exact ⟨_, _, rfl, rfl⟩ | cases h
    obtain ⟨a, b, rfl, hs⟩ := this
    intro y hy
    rcases List.mem_cons.1 hy with rfl | hy
    · exact ⟨a, rfl⟩
    · exact ih hs y hy

/-- Entries that are numbers are those of the table. -/
theorem Assembled.of_fin (ha : Assembled mat rows c Km bl) (hm : GoodMat mat) (hp : ∀ p ∈ bl, 0 < p.2) {r s : ℕ} {x : K}
    (h : Km.get r s = .fin x) : table rows c bl r s = x := by
  have hs := ha.solid hm
  have hx : ∀ p ∈ bl, ∀ e ∈ beamEntries p.1.i p.1.j (coeffs p.1.fiber p.2 c), e.1 = r → e.2.1 = s → ∃ a, e.2.2 = .fin a := by
    intro p hpm e he h1 h2
    rw [ha.eq] at h
    unfold Coo.get at h
    refine sum_eq_fin h _ (List.mem_map.2 ⟨e, List.mem_filter.2 ⟨List.mem_flatMap.2 ⟨p, hpm, he⟩, by simp [h1, h2]⟩, rfl⟩)
  have key : ∀ p ∈ bl, (beamEntries p.1.i p.1.j (coeffs p.1.fiber p.2 c)).filter (fun e => e.1 = r ∧ e.2.1 = s) =
      ((numEntries p.1.i p.1.j (stiff0 p.1.fiber p.2) (stiff0 p.1.fiber p.2 * p.2 / 2 * c)
    (stiff2 p.1.fiber p.2) (stiff2 p.1.fiber p.2 - stiff0 p.1.fiber p.2 * (p.2 * p.2) / 2)).map toCell).filter
        (fun e => e.1 = r ∧ e.2.1 = s) := by
    intro p hpm
    have hx := hx p hpm
    rcases hE : p.1.fiber.E with _ | e
    · rw [coeffs_top (hs p hpm) (hp p hpm) c hE] at hx ⊢
      have x1 : ¬ (2 * p.1.i + 1 = r ∧ 2 * p.1.i + 1 = s) := by
        rintro ⟨a, b⟩
        obtain ⟨y, hy⟩ := hx (2 * p.1.i + 1, 2 * p.1.i + 1, .pinf) (by simp [beamEntries]) a b
        cases hy
      have x2 : ¬ (2 * p.1.i + 1 = r ∧ 2 * p.1.j + 1 = s) := by
        rintro ⟨a, b⟩
        obtain ⟨y, hy⟩ := hx (2 * p.1.i + 1, 2 * p.1.j + 1, -.pinf) (by simp [beamEntries]) a b
        cases hy
      have x3 : ¬ (2 * p.1.j + 1 = r ∧ 2 * p.1.i + 1 = s) := by
        rintro ⟨a, b⟩
        obtain ⟨y, hy⟩ := hx (2 * p.1.j + 1, 2 * p.1.i + 1, -.pinf) (by simp [beamEntries]) a b
        cases hy
      have x4 : ¬ (2 * p.1.j + 1 = r ∧ 2 * p.1.j + 1 = s) := by
        rintro ⟨a, b⟩
        obtain ⟨y, hy⟩ := hx (2 * p.1.j + 1, 2 * p.1.j + 1, .pinf) (by simp [beamEntries]) a b
        cases hy
      simp only [beamEntries, numEntries, List.map_cons, List.map_nil, toCell, List.filter_cons, x1, x2, x3, x4,
        decide_false, Bool.false_eq_true, if_false, List.filter_nil, Cell.neg_fin]
    · rw [coeffs_some (hs p hpm) (hp p hpm) c hE, ← beamEntries_num]
      simp only [stiff2, tensile, hE]
  have : Km.get r s = .fin (table rows c bl r s) := by
    rw [ha.eq, table, ← get_map_toCell]
    unfold Coo.get allEntries
    simp only
    rw [List.map_flatMap, List.filter_flatMap, List.filter_flatMap, List.flatMap_congr key]
  rw [h] at this
  exact (Cell.fin.inj this).symm

end Fibermat
