import Verif.Lemmas.Assembly
import Verif.Props.MatInit
import Verif.Props.MeshInit
import Mathlib.Algebra.Order.BigOperators.Group.List

/-! The stiffness matrix as a sum over beams. -/

set_option linter.unusedSectionVars false
set_option linter.unusedSimpArgs false

namespace Fibermat
variable {K : Type} [Field K] [LinearOrder K] [IsStrictOrderedRing K]
open Spec

theorem beam_bilin (i j : Nat) (k0 k1 k2 k4 : K) (u v : ℕ → K) :
    ((numEntries i j k0 k1 k2 k4).map (fun e => u e.1 * e.2.2 * v e.2.1)).sum =
      u (2 * i) * (k0 * v (2 * i) + k1 * v (2 * i + 1) - k0 * v (2 * j) + k1 * v (2 * j + 1)) +
      u (2 * i + 1) * (k1 * v (2 * i) + k2 * v (2 * i + 1) - k1 * v (2 * j) - k4 * v (2 * j + 1)) +
      u (2 * j) * (-k0 * v (2 * i) - k1 * v (2 * i + 1) + k0 * v (2 * j) - k1 * v (2 * j + 1)) +
      u (2 * j + 1) * (k1 * v (2 * i) - k4 * v (2 * i + 1) - k1 * v (2 * j) + k2 * v (2 * j + 1)) := by
  simp only [numEntries, List.map_cons, List.map_nil, List.sum_cons, List.sum_nil]
  ring

/-- Energy of one beam of rescaled length `p.2`. -/
def beamEnergy (c : K) (u : ℕ → K) (p : Beam K × K) : K :=
  let k0 := stiff0 p.1.fiber p.2
  let a := u (2 * p.1.i) - u (2 * p.1.j)
  let s := u (2 * p.1.i + 1) + u (2 * p.1.j + 1)
  let m := u (2 * p.1.i + 1) - u (2 * p.1.j + 1)
  k0 * ((a + c * p.2 * s / 2) ^ 2 + (1 - c ^ 2) * (p.2 * s / 2) ^ 2 +
    (p.2 ^ 2 / 12 + tensile p.1.fiber / p.1.fiber.G * p.1.fiber.h ^ 2) * m ^ 2)

/-- The assembled data of a call of `stiffness`. -/
structure Assembled (mat : Mat K) (rows : List (MeshRow K)) (c : K) (Km : Coo (Cell K)) (bl : List (Beam K × K)) : Prop where
  eq : Km = ⟨2 * rows.length, 2 * rows.length,
    bl.flatMap (fun p => beamEntries p.1.i p.1.j (coeffs p.1.fiber p.2 c))⟩
  beam : ∀ p ∈ bl, IsBeamOf mat rows p.1
  all : ∀ i, StartsBeam rows i → ∃ p ∈ bl, p.1.i = i
  nodup : (bl.map (·.1.i)).Nodup

theorem assembled {mat : Mat K} {mesh : Mesh K} {lmin lmax : Option K} {c : K} {Km : Coo (Cell K)}
    (h : stiffness mat mesh lmin lmax c = .ok Km) :
    ∃ bl : List (Beam K × K), Assembled mat mesh.rows c Km bl ∧
      (PositiveLengths mesh.rows lmin lmax → ∀ p ∈ bl, 0 < p.2) ∧
      (lmin = none → lmax = none → ∀ p ∈ bl, p.2 = p.1.l) := by
  obtain ⟨-, -, bs, ls, hb, hr, rfl⟩ := stiffness_eq h
  obtain ⟨h1, h2, h3⟩ := beams_spec hb
  have hlen : ls.length = bs.length := by simpa using rescale_length hr
  have hmap : (bs.zip ls).map Prod.fst = bs := List.map_fst_zip (by omega)
  refine ⟨bs.zip ls, ⟨rfl, ?_, ?_, ?_⟩, ?_, ?_⟩
  · intro p hp; exact h1 _ (List.of_mem_zip hp).1
  · intro i hi
    obtain ⟨b, hb, rfl⟩ := h2 i hi
    rw [← hmap] at hb
    obtain ⟨p, hp, rfl⟩ := List.mem_map.1 hb
    exact ⟨p, hp, rfl⟩
  · have : (bs.zip ls).map (·.1.i) = bs.map (·.i) := by
      conv_rhs => rw [← hmap]
      rw [List.map_map]; rfl
    rw [this]; exact h3
  · intro hp p hpm
    exact rescale_pos hp hb hr p.2 (List.of_mem_zip hpm).2
  · rintro rfl rfl
    obtain ⟨a, b, lo, hi, ha, hb', hlo, hhi, hls⟩ := rescale_eq hr
    simp only [Option.getD_none] at hlo hhi
    subst hlo hhi hls
    obtain ⟨ha1, ha2⟩ := npMin_le ha
    obtain ⟨hb1, hb2⟩ := npMax_ge hb'
    rw [min_self, max_self, List.map_map]
    intro p hp
    rw [List.zip_map_right, List.mem_map] at hp
    obtain ⟨q, hq, rfl⟩ := hp
    have hq' : q.1 = q.2 ∧ q.1 ∈ bs := by
      clear * - hq
      induction bs with
      | nil => simp at hq
      | cons x l ih =>
        simp only [List.zip_cons_cons, List.mem_cons] at hq
        rcases hq with rfl | hq
        · exact ⟨rfl, by simp⟩
        · exact ⟨(ih hq).1, List.mem_cons_of_mem _ (ih hq).2⟩
    obtain ⟨q1, q2⟩ := q
    obtain ⟨he, hm⟩ := hq'
    simp only at he hm
    subst he
    simp only [Prod.map_apply, id_eq, Function.comp_apply]
    have hx : q1.l ∈ bs.map (·.l) := List.mem_map_of_mem hm
    have hxa := ha2 _ hx
    have hxb := hb2 _ hx
    unfold interp2
    split_ifs with e1 e2
    · exact le_antisymm e1 hxb
    · exact e2.symm
    · have : lo < q1.l := lt_of_le_of_ne hxa (Ne.symm e2)
      have hne : hi - lo ≠ 0 := by linarith [not_le.1 e1]
      field_simp; ring

variable {mat : Mat K} {rows : List (MeshRow K)} {c : K} {Km : Coo (Cell K)} {bl : List (Beam K × K)}

theorem Assembled.solid (ha : Assembled mat rows c Km bl) (hm : GoodMat mat) : ∀ p ∈ bl, Solid p.1.fiber := by
  intro p hp
  obtain ⟨S, -, hS⟩ := hm.size
  obtain ⟨r, q, -, -, -, -, -, hf⟩ := (ha.beam p hp).rows
  exact GoodFiber.solid (hS _ (List.mem_of_getElem? hf))

theorem Assembled.lt (ha : Assembled mat rows c Km bl) : ∀ p ∈ bl, p.1.i < rows.length ∧ p.1.j < rows.length := by
  intro p hp
  obtain ⟨r, q, h1, h2, -⟩ := (ha.beam p hp).rows
  exact ⟨(List.getElem?_eq_some_iff.1 h1).1, (List.getElem?_eq_some_iff.1 h2).1⟩

theorem Assembled.inRange (ha : Assembled mat rows c Km bl) :
    ∀ e ∈ allEntries c bl, e.1 < 2 * rows.length ∧ e.2.1 < 2 * rows.length := by
  intro e he
  obtain ⟨p, hp, he⟩ := List.mem_flatMap.1 he
  have := ha.lt p hp
  simp only [numEntries, List.mem_cons, List.not_mem_nil, or_false] at he
  rcases he with rfl | rfl | rfl | rfl | rfl | rfl | rfl | rfl | rfl | rfl | rfl | rfl | rfl | rfl | rfl | rfl <;>
    (simp only; omega)

/-- Table of numbers of the matrix. -/
def table (rows : List (MeshRow K)) (c : K) (bl : List (Beam K × K)) : ℕ → ℕ → K :=
  Coo.get ⟨2 * rows.length, 2 * rows.length, allEntries c bl⟩

/-- With finite tensile moduli all entries are finite. -/
theorem Assembled.entries (ha : Assembled mat rows c Km bl) (hm : GoodMat mat) (ht : FiniteTensile mat)
    (hp : ∀ p ∈ bl, 0 < p.2) : Entries Km (table rows c bl) := by
  intro r s
  rw [ha.eq, entries_num c hp (ha.solid hm), get_map_toCell]
  · rfl
  · intro p hp
    obtain ⟨r, q, -, -, -, -, -, hf⟩ := (ha.beam p hp).rows
    exact ht _ (List.mem_of_getElem? hf)

/-- Entries that involve a displacement are finite in any case. -/
theorem Assembled.disp (ha : Assembled mat rows c Km bl) (hm : GoodMat mat) (hp : ∀ p ∈ bl, 0 < p.2) {r s : ℕ}
    (h : r % 2 = 0 ∨ s % 2 = 0) : Km.get r s = .fin (table rows c bl r s) := by
  have hs := ha.solid hm
  have key : ∀ bl : List (Beam K × K), (∀ p ∈ bl, 0 < p.2) → (∀ p ∈ bl, Solid p.1.fiber) →
      (bl.flatMap (fun p => beamEntries p.1.i p.1.j (coeffs p.1.fiber p.2 c))).filter (fun e => e.1 = r ∧ e.2.1 = s) =
      ((allEntries c bl).map toCell).filter (fun e => e.1 = r ∧ e.2.1 = s) := by
    intro bl hp hs
    unfold allEntries
    rw [List.map_flatMap, List.filter_flatMap, List.filter_flatMap]
    apply List.flatMap_congr
    intro p hpm
    rcases hE : p.1.fiber.E with _ | e
    · rw [coeffs_top (hs p hpm) (hp p hpm) c hE]
      have x1 : ¬ (2 * p.1.i + 1 = r ∧ 2 * p.1.i + 1 = s) := by omega
      have x2 : ¬ (2 * p.1.i + 1 = r ∧ 2 * p.1.j + 1 = s) := by omega
      have x3 : ¬ (2 * p.1.j + 1 = r ∧ 2 * p.1.i + 1 = s) := by omega
      have x4 : ¬ (2 * p.1.j + 1 = r ∧ 2 * p.1.j + 1 = s) := by omega
      simp only [beamEntries, numEntries, List.map_cons, List.map_nil, toCell, List.filter_cons, x1, x2, x3, x4,
        decide_false, Bool.false_eq_true, if_false, List.filter_nil, Cell.neg_fin]
    · rw [coeffs_some (hs p hpm) (hp p hpm) c hE, ← beamEntries_num]
      simp only [stiff2, tensile, hE]
  rw [ha.eq, table, ← get_map_toCell]
  unfold Coo.get
  simp only
  rw [key bl hp hs]

/-- Sum over beams of the bilinear form. -/
theorem Assembled.bilin (ha : Assembled mat rows c Km bl) (u v : ℕ → K) :
    ∑ r ∈ Finset.range (2 * rows.length), ∑ s ∈ Finset.range (2 * rows.length), u r * table rows c bl r s * v s =
    (bl.map (fun p => ((numEntries p.1.i p.1.j (stiff0 p.1.fiber p.2) (stiff0 p.1.fiber p.2 * p.2 / 2 * c)
      (stiff2 p.1.fiber p.2) (stiff2 p.1.fiber p.2 - stiff0 p.1.fiber p.2 * (p.2 * p.2) / 2)).map
        (fun e => u e.1 * e.2.2 * v e.2.1)).sum)).sum := by
  unfold table
  rw [coo_bilin _ _ _ _ (fun e he => (ha.inRange e he).1) (fun e he => (ha.inRange e he).2)]
  unfold allEntries
  rw [sum_map_flatMap]

/-- The energy is the sum of the energies of the beams. -/
theorem Assembled.energy_eq (ha : Assembled mat rows c Km bl) (u : ℕ → K) :
    energy (2 * rows.length) (table rows c bl) u = (bl.map (beamEnergy c u)).sum := by
  unfold energy
  rw [ha.bilin]
  congr 1
  apply List.map_congr_left
  intro p _
  rw [beam_bilin]
  simp only [beamEnergy, stiff2]
  ring

/-- One row of the product with a vector. -/
theorem Assembled.row (ha : Assembled mat rows c Km bl) (v : ℕ → K)
    (h : ∀ p ∈ bl, ∀ u : ℕ → K, ((numEntries p.1.i p.1.j (stiff0 p.1.fiber p.2) (stiff0 p.1.fiber p.2 * p.2 / 2 * c)
      (stiff2 p.1.fiber p.2) (stiff2 p.1.fiber p.2 - stiff0 p.1.fiber p.2 * (p.2 * p.2) / 2)).map
        (fun e => u e.1 * e.2.2 * v e.2.1)).sum = 0) (r : ℕ) :
    ∑ s ∈ Finset.range (2 * rows.length), table rows c bl r s * v s = 0 := by
  by_cases hr : r < 2 * rows.length
  · have := ha.bilin (fun k => if k = r then 1 else 0) v
    rw [List.map_congr_left (g := fun _ => (0 : K)) (fun p hp => h p hp (fun k => if k = r then 1 else 0))] at this
    rw [Finset.sum_eq_single r] at this
    · simpa using this
    · intro k _ hk; simp [hk]
    · intro hk; exact absurd (Finset.mem_range.2 hr) hk
  · unfold table
    rw [coo_row_dot _ _ _ _ (fun e he => (ha.inRange e he).2)]
    rw [List.filter_eq_nil_iff.2]
    · simp
    · intro e he
      have := (ha.inRange e he).1
      simp only [decide_eq_true_eq]; omega

end Fibermat
