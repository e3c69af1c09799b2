import Verif.Lemmas.Solver
import Verif.Lemmas.Stiffness
import Verif.Props.Constraint

/-! The system assembled by `solve` from a mesh. -/

set_option linter.unusedSectionVars false
set_option linter.unusedSimpArgs false

namespace Fibermat
variable {K : Type} [Field K] [LinearOrder K] [IsStrictOrderedRing K]
open Spec

variable {mat : Mat K} {rows : List (MeshRow K)} {c : K} {Km : Coo (Cell K)} {bl : List (Beam K × K)}

/-- Rotations of the nodes on a beam of infinite tensile modulus. -/
def Frozen (bl : List (Beam K × K)) (r : ℕ) : Prop :=
  ∃ p ∈ bl, p.1.fiber.E = ⊤ ∧ (r = 2 * p.1.i + 1 ∨ r = 2 * p.1.j + 1)

/-- Entries that do not couple two frozen rotations are numbers. -/
theorem Assembled.soft (ha : Assembled mat rows c Km bl) (hm : GoodMat mat) (hp : ∀ p ∈ bl, 0 < p.2) {r s : ℕ}
    (h : ¬ (Frozen bl r ∧ Frozen bl s)) : Km.get r s = .fin (table rows c bl r s) := by
  have hs := ha.solid hm
  have hex : ∀ p ∈ bl, p.1.fiber.E = ⊤ →
      ¬ ((2 * p.1.i + 1 = r ∨ 2 * p.1.j + 1 = r) ∧ (2 * p.1.i + 1 = s ∨ 2 * p.1.j + 1 = s)) := by
    rintro p hpm hE ⟨h1, h2⟩
    exact h ⟨⟨p, hpm, hE, by omega⟩, ⟨p, hpm, hE, by omega⟩⟩
  have key : ∀ bl : List (Beam K × K), (∀ p ∈ bl, 0 < p.2) → (∀ p ∈ bl, Solid p.1.fiber) →
      (∀ p ∈ bl, p.1.fiber.E = ⊤ →
      ¬ ((2 * p.1.i + 1 = r ∨ 2 * p.1.j + 1 = r) ∧ (2 * p.1.i + 1 = s ∨ 2 * p.1.j + 1 = s))) →
      (bl.flatMap (fun p => beamEntries p.1.i p.1.j (coeffs p.1.fiber p.2 c))).filter (fun e => e.1 = r ∧ e.2.1 = s) =
      ((allEntries c bl).map toCell).filter (fun e => e.1 = r ∧ e.2.1 = s) := by
    intro bl hp hs hex
    unfold allEntries
    rw [List.map_flatMap, List.filter_flatMap, List.filter_flatMap]
    apply List.flatMap_congr
    intro p hpm
    rcases hE : p.1.fiber.E with _ | e
    · rw [coeffs_top (hs p hpm) (hp p hpm) c hE]
      have hx := hex p hpm hE
      have x1 : ¬ (2 * p.1.i + 1 = r ∧ 2 * p.1.i + 1 = s) := by omega
      have x2 : ¬ (2 * p.1.i + 1 = r ∧ 2 * p.1.j + 1 = s) := by omega
      have x3 : ¬ (2 * p.1.j + 1 = r ∧ 2 * p.1.i + 1 = s) := by omega
      have x4 : ¬ (2 * p.1.j + 1 = r ∧ 2 * p.1.j + 1 = s) := by omega
      simp only [beamEntries, numEntries, List.map_cons, List.map_nil, toCell, List.filter_cons, x1, x2, x3, x4,
        decide_false, Bool.false_eq_true, if_false, List.filter_nil, Cell.neg_fin]
    · rw [coeffs_some (hs p hpm) (hp p hpm) c hE, ← beamEntries_num]
      simp only [stiff2, tensile, hE]
  rw [ha.eq, table, ← get_map_toCell]
  unfold Coo.get
  simp only
  rw [key bl hp hs hex]

theorem sum_pinf {l : List (Cell K)} (h : ∀ x ∈ l, x = .pinf ∨ ∃ a, x = .fin a) (hp : (.pinf : Cell K) ∈ l) :
    l.sum = .pinf := by
  have key : ∀ l : List (Cell K), (∀ x ∈ l, x = .pinf ∨ ∃ a, x = .fin a) →
      (l.sum = .pinf ∨ ∃ a, l.sum = .fin a) ∧ (.pinf ∈ l → l.sum = .pinf) := by
    intro l
    induction l with
    | nil => intro _; exact ⟨Or.inr ⟨0, rfl⟩, by simp⟩
    | cons x l ih =>
      intro h
      obtain ⟨i1, i2⟩ := ih (fun y hy => h y (List.mem_cons_of_mem _ hy))
      rw [List.sum_cons]
      rcases h x (by simp) with rfl | ⟨a, rfl⟩
      · have : (Cell.pinf : Cell K) + l.sum = .pinf := by
          rcases i1 with e | ⟨b, e⟩ <;> rw [e] <;> rfl
        exact ⟨Or.inl this, fun _ => this⟩
      · refine ⟨?_, ?_⟩
        · rcases i1 with e | ⟨b, e⟩
          · left; rw [e]; rfl
          · right; exact ⟨a + b, by rw [e]; rfl⟩
        · intro hm
          have : (Cell.pinf : Cell K) ∈ l := by
            rcases List.mem_cons.1 hm with h | h
            · cases h
            · exact h
          rw [i2 this]; rfl
  exact (key l h).2 hp

/-- The diagonal entry of a frozen rotation is infinite. -/
theorem Assembled.frozen_diag (ha : Assembled mat rows c Km bl) (hm : GoodMat mat) (hp : ∀ p ∈ bl, 0 < p.2) {r : ℕ}
    (h : Frozen bl r) : Km.get r r = .pinf := by
  have hs := ha.solid hm
  rw [ha.eq]
  unfold Coo.get
  simp only
  rw [List.filter_flatMap, List.map_flatMap]
  apply sum_pinf
  · intro x hx
    obtain ⟨p, hpm, hx⟩ := List.mem_flatMap.1 hx
    obtain ⟨e, he, rfl⟩ := List.mem_map.1 hx
    obtain ⟨he, hrr⟩ := List.mem_filter.1 he
    simp only [decide_eq_true_eq] at hrr
    have hlt := (ha.beam p hpm).lt
    rcases hE : p.1.fiber.E with _ | m
    · rw [coeffs_top (hs p hpm) (hp p hpm) c hE] at he
      simp only [beamEntries, List.mem_cons, List.not_mem_nil, or_false] at he
      rcases he with rfl | rfl | rfl | rfl | rfl | rfl | rfl | rfl | rfl | rfl | rfl | rfl | rfl | rfl | rfl | rfl <;>
        simp only at hrr ⊢ <;> first | exact Or.inl rfl | exact Or.inl trivial | exact Or.inr ⟨_, rfl⟩ | (exfalso; omega)
    · rw [coeffs_some (hs p hpm) (hp p hpm) c hE] at he
      simp only [beamEntries, List.mem_cons, List.not_mem_nil, or_false] at he
      rcases he with rfl | rfl | rfl | rfl | rfl | rfl | rfl | rfl | rfl | rfl | rfl | rfl | rfl | rfl | rfl | rfl <;>
        exact Or.inr ⟨_, rfl⟩
  · obtain ⟨p, hpm, hE, hr⟩ := h
    refine List.mem_flatMap.2 ⟨p, hpm, ?_⟩
    rw [coeffs_top (hs p hpm) (hp p hpm) c hE]
    refine List.mem_map.2 ⟨(r, r, .pinf), List.mem_filter.2 ⟨?_, by simp⟩, rfl⟩
    rcases hr with rfl | rfl <;> simp [beamEntries]

theorem get_sum_ite (n m : Nat) (es : List (Nat × Nat × K)) (r s : Nat) :
    Coo.get ⟨n, m, es⟩ r s = (es.map (fun e => if e.1 = r ∧ e.2.1 = s then e.2.2 else 0)).sum := by
  unfold Coo.get
  induction es with
  | nil => rfl
  | cons e es ih =>
    by_cases h : e.1 = r ∧ e.2.1 = s
    · simpa [List.filter_cons, h] using ih
    · simpa [List.filter_cons, h] using ih

theorem table_symm (rows : List (MeshRow K)) (c : K) (bl : List (Beam K × K)) (r s : ℕ) :
    table rows c bl r s = table rows c bl s r := by
  unfold table allEntries
  rw [get_sum_ite, get_sum_ite, sum_map_flatMap, sum_map_flatMap]
  congr 1
  apply List.map_congr_left
  intro p _
  simp only [numEntries, List.map_cons, List.map_nil, List.sum_cons, List.sum_nil]
  simp only [and_comm (b := _ = r)]
  abel

/-- Table of the whole system: stiffness and constraint blocks. -/
def wholeTable (N : ℕ) (T : ℕ → ℕ → K) (C : Coo K) (r s : ℕ) : K :=
  if r < N then if s < N then T r s else C.get (s - N) r
  else if s < N then C.get (r - N) s else 0

/-- The result of `constraint`, unfolded. -/
structure Contacts (mat : Mat K) (rows : List (MeshRow K)) (cs : ConstraintSys K) (hs : List K) (l : List (Contact K)) : Prop where
  thick : nodeThickness mat rows = .ok hs
  C : cs.C = ⟨3 * l.length, 2 * rows.length, l.zipIdx.flatMap (fun p => contactEntries p.2 p.1.i p.1.j)⟩
  H : cs.H = l.flatMap (contactBounds cs.Z)
  dH : cs.dH = l.flatMap (fun _ => [0, 0, 1])
  contact : ∀ x ∈ l, IsContact rows hs x
  all : ∀ (i : ℕ) (r : MeshRow K), rows[i]? = some r → (i : Int) ≤ r.constraint → ∃ x ∈ l, x.i = i
  distinct : (l.map (·.i)).Nodup

theorem contacts_of' {mesh : Mesh K} {cs : ConstraintSys K} {hs : List K} {l : List (Contact K)}
    (h : constraint mat mesh = .ok cs) (h3 : nodeThickness mat mesh.rows = .ok hs) (h4 : contacts mesh.rows hs = .ok l) :
    Contacts mat mesh.rows cs hs l := by
  obtain ⟨-, -, hs', l', Z, h3', h4', h5, rfl⟩ := constraint_eq h
  rw [h3] at h3'; cases h3'
  rw [h4] at h4'; cases h4'
  obtain ⟨hlen, -⟩ := nodeThickness_spec h3
  obtain ⟨c1, c2, c3⟩ := contacts_spec hlen h4
  exact ⟨h3, rfl, rfl, rfl, c1, c2, c3⟩

theorem contacts_of {mesh : Mesh K} {cs : ConstraintSys K} (h : constraint mat mesh = .ok cs) :
    ∃ hs l, Contacts mat mesh.rows cs hs l := by
  obtain ⟨-, -, hs, l, Z, h3, h4, h5, rfl⟩ := constraint_eq h
  obtain ⟨hlen, -⟩ := nodeThickness_spec h3
  obtain ⟨c1, c2, c3⟩ := contacts_spec hlen h4
  exact ⟨hs, l, h3, rfl, rfl, rfl, c1, c2, c3⟩

section
variable {cs : ConstraintSys K} {hs : List K} {l : List (Contact K)}

theorem Contacts.lt (hc : Contacts mat rows cs hs l) : ∀ x ∈ l, 2 * x.i < 2 * rows.length ∧ 2 * x.j < 2 * rows.length := by
  intro x hx
  obtain ⟨i1, i2, -⟩ := contact_data hc.thick (hc.contact x hx)
  omega

theorem Contacts.row (hc : Contacts mat rows cs hs l) {k d : ℕ} {x : Contact K} (hk : l[k]? = some x) (hd : d < 3) (u : ℕ → K) :
    rowDot cs.C (3 * k + d) u =
      if d = 0 then - u (2 * x.i) else if d = 1 then u (2 * x.i) - u (2 * x.j) else u (2 * x.j) := by
  rw [hc.C]; exact contact_row _ l hc.lt hk hd u

/-- Single entries of the constraint matrix. -/
theorem Contacts.entry (hc : Contacts mat rows cs hs l) {k d : ℕ} {x : Contact K} (hk : l[k]? = some x) (hd : d < 3) {s : ℕ}
    (hs' : s < 2 * rows.length) :
    cs.C.get (3 * k + d) s =
      if d = 0 then - (if 2 * x.i = s then 1 else 0) else if d = 1 then (if 2 * x.i = s then 1 else 0) - (if 2 * x.j = s then 1 else 0)
      else (if 2 * x.j = s then 1 else 0) := by
  rw [← hc.row hk hd (fun t => if t = s then 1 else 0)]
  unfold rowDot
  rw [Finset.sum_eq_single s]
  · simp
  · intro t _ ht; simp [ht]
  · intro hn
    exfalso; apply hn
    rw [Finset.mem_range, hc.C]; exact hs'

theorem Contacts.bound (hc : Contacts mat rows cs hs l) {k d : ℕ} {x : Contact K} (hk : l[k]? = some x) (hd : d < 3) :
    cs.H[3 * k + d]? = (contactBounds cs.Z x)[d]? := by
  rw [hc.H]; exact bounds_at _ l hk hd

theorem Contacts.incr (hc : Contacts mat rows cs hs l) {j : ℕ} (hj : j < 3 * l.length) :
    cs.dH.getD j 0 = if j % 3 = 2 then 1 else 0 := by
  obtain ⟨q, d, hd, rfl⟩ : ∃ q d, d < 3 ∧ j = 3 * q + d := ⟨j / 3, j % 3, by omega, by omega⟩
  have hq : l[q]? = some l[q] := List.getElem?_eq_getElem (by omega)
  rw [List.getD_eq_getElem?_getD, hc.dH, flatMap3_getElem? _ (fun _ => rfl) _ hd, hq]
  have : (3 * q + d) % 3 = d := by omega
  rw [this]
  interval_cases d <;> rfl

/-- The system assembled from a mesh is sound. -/
theorem assemble_sound (ha : Assembled mat rows c Km bl) (hm : GoodMat mat) (hp : ∀ p ∈ bl, 0 < p.2)
    (hc : Contacts mat rows cs hs l) :
    Sound (assemble Km cs) (wholeTable (2 * rows.length) (table rows c bl) cs.C) (Frozen bl) := by
  have hN : Km.nrows = 2 * rows.length := by rw [ha.eq]
  have hfl : ∀ r, Frozen bl r → r < 2 * rows.length := by
    rintro r ⟨p, hpm, -, h⟩
    have := ha.lt p hpm
    omega
  have hnC : cs.C.nrows = 3 * l.length := by rw [hc.C]
  have hn : (assemble Km cs).n = 2 * rows.length + 3 * l.length := by
    unfold Sys.n assemble; simp only [hN, hnC]
  refine ⟨?_, ?_, ?_, ?_, ?_, ?_, ?_⟩
  · intro r s hrs
    simp only [assemble, wholeTable, hN]
    split_ifs with h1 h2 h2
    · exact ha.soft hm hp hrs
    · rfl
    · rfl
    · rfl
  · intro r hr
    have := hfl r hr
    simp only [assemble, hN, this, if_true]
    exact ha.frozen_diag hm hp hr
  · intro r hr
    have := hfl r hr
    simpa [assemble, hN] using this
  · intro r s
    simp only [wholeTable]
    split_ifs with h1 h2 h2
    · exact table_symm _ _ _ _ _
    · rfl
    · rfl
    · rfl
  · intro r hr
    have : r < Km.nrows := hr
    simp [assemble, this]
  · intro r h1 h2
    have h1 : 2 * rows.length ≤ r := by rw [← hN]; exact h1
    rw [hn] at h2
    obtain ⟨q, d, hd, rfl⟩ : ∃ q d, d < 3 ∧ r = 2 * rows.length + (3 * q + d) :=
      ⟨(r - 2 * rows.length) / 3, (r - 2 * rows.length) % 3, by omega, by omega⟩
    have hq : l[q]? = some l[q] := List.getElem?_eq_getElem (by omega)
    generalize l[q] = x at hq
    have hb := hc.bound hq hd
    have hnl : ¬ 2 * rows.length + (3 * q + d) < 2 * rows.length := by omega
    have hq0 : (assemble Km cs).q0 (2 * rows.length + (3 * q + d)) = ((contactBounds cs.Z x)[d]?).getD (.fin 0) := by
      simp only [assemble, hN, if_neg hnl, Nat.add_sub_cancel_left, List.getD_eq_getElem?_getD, hb]
    have hdq : (assemble Km cs).dq (2 * rows.length + (3 * q + d)) = if (3 * q + d) % 3 = 2 then 1 else 0 := by
      simp only [assemble, hN, if_neg hnl, Nat.add_sub_cancel_left]
      exact hc.incr (by omega)
    rw [hq0, hdq]
    interval_cases d
    · left; exact ⟨_, rfl⟩
    · by_cases he : x.i = x.j
      · right
        refine ⟨by simp [contactBounds, he], by rw [if_neg (by omega)], ?_⟩
        intro s
        simp only [wholeTable, if_neg hnl, Nat.add_sub_cancel_left]
        split_ifs with hs'
        · rw [hc.entry hq (by omega) hs']; simp [he]
        · rfl
      · left; simp [contactBounds, he]
    · left; exact ⟨_, rfl⟩
  · intro r h2 hfr hz
    rw [hn] at h2 hz
    by_cases h1 : r < 2 * rows.length
    · simp [assemble, hN, h1]
    · obtain ⟨q, d, hd, rfl⟩ : ∃ q d, d < 3 ∧ r = 2 * rows.length + (3 * q + d) :=
        ⟨(r - 2 * rows.length) / 3, (r - 2 * rows.length) % 3, by omega, by omega⟩
      have hq : l[q]? = some l[q] := List.getElem?_eq_getElem (by omega)
      generalize l[q] = x at hq
      have hx := hc.lt x (List.mem_of_getElem? hq)
      have hdq : (assemble Km cs).dq (2 * rows.length + (3 * q + d)) = if (3 * q + d) % 3 = 2 then 1 else 0 := by
        simp only [assemble, hN, if_neg h1, Nat.add_sub_cancel_left]
        exact hc.incr (by omega)
      rw [hdq]
      split_ifs with h3
      · have hd2 : d = 2 := by omega
        subst hd2
        have := hz (2 * x.j) (by omega)
        simp only [wholeTable, if_pos hx.2, if_neg h1, Nat.add_sub_cancel_left] at this
        rw [hc.entry hq (by omega) hx.2] at this
        simp at this
      · rfl

end

end Fibermat
