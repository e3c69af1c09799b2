import Verif.Model.Assembly
import Verif.Spec.Assembly
import Verif.Lemmas.Cell
import Verif.Lemmas.Coo
import Mathlib.Tactic.Linarith
import Mathlib.Tactic.FieldSimp
import Mathlib.Tactic.Positivity
import Mathlib.Algebra.BigOperators.Group.List.Lemmas
import Mathlib.Tactic.IntervalCases

/-! Lemmas on the assembly of the stiffness matrix. -/

set_option linter.unusedSectionVars false
set_option linter.unusedSimpArgs false

namespace Fibermat
variable {K : Type} [Field K] [LinearOrder K]
open Spec

/-! ## `mapM` with exceptions -/

theorem mapM_forall₂ {α β : Type} (f : α → Except Err β) (l : List α) (l' : List β) :
    l.mapM f = .ok l' ↔ List.Forall₂ (fun a b => f a = .ok b) l l' := by
  induction l generalizing l' with
  | nil =>
    simp only [List.mapM_nil, List.forall₂_nil_left_iff]
    constructor
    · intro h; cases h; rfl
    · rintro rfl; rfl
  | cons a l ih =>
    rw [List.mapM_cons]
    cases hfa : f a with
    | error e =>
      simp only [List.forall₂_cons_left_iff, hfa]
      constructor
      · intro h; cases h
      · rintro ⟨b, u, h, -, -⟩; cases h
    | ok b =>
      cases hl : l.mapM f with
      | error e =>
        simp only [List.forall₂_cons_left_iff, hfa]
        constructor
        · intro h; cases h
        · rintro ⟨b', u, h, h2, -⟩
          rw [← ih] at h2; rw [hl] at h2; cases h2
      | ok bs =>
        simp only [List.forall₂_cons_left_iff, hfa, ← ih, hl]
        constructor
        · intro h; cases h; exact ⟨b, bs, rfl, rfl, rfl⟩
        · rintro ⟨b', u, h, h2, rfl⟩; cases h; cases h2; rfl

theorem mapM_ok_of {α β : Type} (f : α → Except Err β) (l : List α) (h : ∀ a ∈ l, ∃ b, f a = .ok b) :
    ∃ l', l.mapM f = .ok l' := by
  induction l with
  | nil => exact ⟨[], rfl⟩
  | cons a l ih =>
    obtain ⟨b, hb⟩ := h a (by simp)
    obtain ⟨l', hl⟩ := ih (fun x hx => h x (List.mem_cons_of_mem _ hx))
    refine ⟨b :: l', ?_⟩
    rw [mapM_forall₂] at hl ⊢
    exact List.Forall₂.cons hb hl

/-! ## Coefficients of a beam -/

/-- The ratio `G / E`. -/
def slender (f : Fiber K) : K := match f.E with | none => 0 | some e => f.G / e

/-- `k0` as a number. -/
def stiff0 (f : Fiber K) (l : K) : K :=
  npPi / 4 * (f.G * f.b * f.h) / l / (1 + slender f * ((l / f.h) * (l / f.h)))

section
variable [IsStrictOrderedRing K]

theorem npPi_pos' : (0 : K) < npPi := by unfold npPi; positivity

/-- The conditions used on a fiber. -/
structure Solid (f : Fiber K) : Prop where
  b : 0 < f.b
  h : 0 < f.h
  G : 0 < f.G
  E : 0 < f.E

theorem GoodFiber.solid {S : K} {f : Fiber K} (h : GoodFiber S f) : Solid f := ⟨h.b, h.h, h.G, h.E⟩

theorem slender_nonneg {f : Fiber K} (hf : Solid f) : 0 ≤ slender f := by
  have hE := hf.E
  unfold slender
  rcases h : f.E with _ | e
  · exact le_refl _
  · rw [h] at hE
    have : 0 < e := WithTop.coe_lt_coe.1 hE
    have := hf.G
    positivity

theorem stiff0_pos {f : Fiber K} (hf : Solid f) {l : K} (hl : 0 < l) : 0 < stiff0 f l := by
  have h1 := slender_nonneg hf
  have h2 := hf.b; have h3 := hf.h; have h4 := hf.G
  have h5 := npPi_pos' (K := K)
  unfold stiff0
  positivity

theorem coeffs_some {f : Fiber K} (hf : Solid f) {l : K} (hl : 0 < l) (c : K) {e : K} (he : f.E = some e) :
    coeffs f l c = ⟨.fin (stiff0 f l), .fin (stiff0 f l * l / 2 * c),
      .fin (stiff0 f l * (l * l) / 3 + stiff0 f l * (e / f.G) * (f.h * f.h)),
      .fin (stiff0 f l * (l * l) / 3 + stiff0 f l * (e / f.G) * (f.h * f.h) - stiff0 f l * (l * l) / 2)⟩ := by
  have h3 := hf.h; have h4 := hf.G
  have hE : 0 < e := by have := hf.E; rw [he] at this; exact WithTop.coe_lt_coe.1 this
  have hd : (1 + f.G / e * ((l / f.h) * (l / f.h)) : K) ≠ 0 := by positivity
  have h2 : (2 : K) ≠ 0 := by norm_num
  have h3' : (3 : K) ≠ 0 := by norm_num
  simp only [coeffs, topCell, he, stiff0, slender, Cell.fin_div_fin hl.ne', Cell.fin_div_fin h3.ne',
    Cell.fin_div_fin h4.ne', Cell.fin_div_fin hE.ne', Cell.fin_mul_fin, Cell.fin_add_fin, Cell.fin_sub_fin,
    Cell.fin_div_fin hd, Cell.fin_div_fin h2, Cell.fin_div_fin h3']

theorem coeffs_top {f : Fiber K} (hf : Solid f) {l : K} (hl : 0 < l) (c : K) (he : f.E = ⊤) :
    coeffs f l c = ⟨.fin (stiff0 f l), .fin (stiff0 f l * l / 2 * c), .pinf, .pinf⟩ := by
  have h3 := hf.h; have h4 := hf.G
  have hd : (1 + 0 * ((l / f.h) * (l / f.h)) : K) ≠ 0 := by simp
  have h2 : (2 : K) ≠ 0 := by norm_num
  have h3' : (3 : K) ≠ 0 := by norm_num
  have e1 : (Cell.fin f.G / Cell.pinf : Cell K) = Cell.fin 0 := rfl
  have e2 : (Cell.pinf / Cell.fin f.G : Cell K) = Cell.pinf := by
    change Cell.div _ _ = _; simp [Cell.div, h4.le]
  have e3 : ∀ a : K, 0 < a → (Cell.fin a * Cell.pinf : Cell K) = Cell.pinf := by
    intro a ha; change Cell.mul _ _ = _; simp [Cell.mul, ha, ha.ne']
  have e4 : ∀ a : K, 0 < a → (Cell.pinf * Cell.fin a : Cell K) = Cell.pinf := by
    intro a ha; change Cell.mul _ _ = _; simp [Cell.mul, ha, ha.ne']
  have e5 : ∀ a : K, (Cell.fin a + Cell.pinf : Cell K) = Cell.pinf := fun a => rfl
  have e6 : ∀ a : K, (Cell.pinf - Cell.fin a : Cell K) = Cell.pinf := fun a => rfl
  have hs : stiff0 f l = npPi / 4 * (f.G * f.b * f.h) / l / (1 + 0 * ((l / f.h) * (l / f.h))) := by
    simp only [stiff0, slender]
    rw [show f.E = none from he]
  have hp := stiff0_pos hf hl
  have h0 : (Cell.fin (npPi / 4 * (f.G * f.b * f.h)) / Cell.fin l /
      (Cell.fin 1 + Cell.fin f.G / Cell.pinf * (Cell.fin l / Cell.fin f.h * (Cell.fin l / Cell.fin f.h))) : Cell K)
      = Cell.fin (stiff0 f l) := by
    rw [hs, e1]
    simp only [Cell.fin_div_fin hl.ne', Cell.fin_div_fin h3.ne', Cell.fin_mul_fin, Cell.fin_add_fin,
      Cell.fin_div_fin hd]
  have ht : topCell f.E = (Cell.pinf : Cell K) := by rw [he]; rfl
  simp only [coeffs, ht]
  rw [h0, e2, e3 _ hp, Cell.fin_mul_fin, Cell.fin_mul_fin, Cell.fin_mul_fin, Cell.fin_mul_fin, e4 _ (by positivity),
    Cell.fin_div_fin h2, Cell.fin_div_fin h3', Cell.fin_div_fin h2, e5, e6, Cell.fin_mul_fin]

/-! ## Rescaling -/

theorem npMin_le {l : List K} {a : K} (h : npMin l = .ok a) : a ∈ l ∧ ∀ x ∈ l, a ≤ x := by
  cases l with
  | nil => cases h
  | cons b l =>
    have h : l.foldl min b = a := by simpa [npMin] using h
    subst h
    constructor
    · clear h
      induction l generalizing b with
      | nil => simp
      | cons c l ih =>
        have := ih (min b c)
        simp only [List.foldl_cons, List.mem_cons] at this ⊢
        rcases min_choice b c with hm | hm <;> rw [hm] at this ⊢ <;> tauto
    · have key : ∀ (l : List K) (b : K), l.foldl min b ≤ b ∧ ∀ x ∈ l, l.foldl min b ≤ x := by
        intro l
        induction l with
        | nil => intro b; simp
        | cons c l ih =>
          intro b
          obtain ⟨h1, h2⟩ := ih (min b c)
          simp only [List.foldl_cons, List.mem_cons]
          refine ⟨h1.trans (min_le_left _ _), ?_⟩
          rintro x (rfl | hx)
          · exact h1.trans (min_le_right _ _)
          · exact h2 x hx
      intro x hx
      rcases List.mem_cons.1 hx with rfl | hx
      · exact (key l x).1
      · exact (key l b).2 x hx

theorem npMax_ge {l : List K} {a : K} (h : npMax l = .ok a) : a ∈ l ∧ ∀ x ∈ l, x ≤ a := by
  cases l with
  | nil => cases h
  | cons b l =>
    have h : l.foldl max b = a := by simpa [npMax] using h
    subst h
    constructor
    · clear h
      induction l generalizing b with
      | nil => simp
      | cons c l ih =>
        have := ih (max b c)
        simp only [List.foldl_cons, List.mem_cons] at this ⊢
        rcases max_choice b c with hm | hm <;> rw [hm] at this ⊢ <;> tauto
    · have key : ∀ (l : List K) (b : K), b ≤ l.foldl max b ∧ ∀ x ∈ l, x ≤ l.foldl max b := by
        intro l
        induction l with
        | nil => intro b; simp
        | cons c l ih =>
          intro b
          obtain ⟨h1, h2⟩ := ih (max b c)
          simp only [List.foldl_cons, List.mem_cons]
          refine ⟨(le_max_left _ _).trans h1, ?_⟩
          rintro x (rfl | hx)
          · exact (le_max_right _ _).trans h1
          · exact h2 x hx
      intro x hx
      rcases List.mem_cons.1 hx with rfl | hx
      · exact (key l x).1
      · exact (key l b).2 x hx

theorem npMin_ok {l : List K} (h : l ≠ []) : ∃ a, npMin l = .ok a := by
  cases l with
  | nil => exact absurd rfl h
  | cons a l => exact ⟨_, rfl⟩

theorem npMax_ok {l : List K} (h : l ≠ []) : ∃ a, npMax l = .ok a := by
  cases l with
  | nil => exact absurd rfl h
  | cons a l => exact ⟨_, rfl⟩

/-- What `rescale` computes. -/
theorem rescale_eq {lmin lmax : Option K} {ls out : List K} (h : rescale lmin lmax ls = .ok out) :
    ∃ a b lo hi, npMin ls = .ok a ∧ npMax ls = .ok b ∧ (lo = lmin.getD a) ∧ (hi = lmax.getD b) ∧
      out = ls.map (interp2 (min a lo) (max b hi) lo hi) := by
  by_cases hne : ls = []
  · subst hne
    cases lmin <;> cases lmax <;> cases h
  · obtain ⟨a, ha⟩ := npMin_ok hne
    obtain ⟨b, hb⟩ := npMax_ok hne
    refine ⟨a, b, _, _, ha, hb, rfl, rfl, ?_⟩
    cases lmin <;> cases lmax <;> simp only [rescale, ha, hb] at h <;> cases h <;> rfl

theorem rescale_ok (lmin lmax : Option K) {ls : List K} (hne : ls ≠ []) : ∃ out, rescale lmin lmax ls = .ok out := by
  obtain ⟨a, ha⟩ := npMin_ok hne
  obtain ⟨b, hb⟩ := npMax_ok hne
  cases lmin <;> cases lmax <;> simp only [rescale, ha, hb] <;> exact ⟨_, rfl⟩

/-- Inside the interval the interpolation lies between the two values. -/
theorem interp2_between {x0 x1 y0 y1 t : K} (h0 : x0 ≤ t) : min y0 y1 ≤ interp2 x0 x1 y0 y1 t ∧
    interp2 x0 x1 y0 y1 t ≤ max y0 y1 := by
  unfold interp2
  split_ifs with h1 h2
  · exact ⟨min_le_right _ _, le_max_right _ _⟩
  · exact ⟨min_le_left _ _, le_max_left _ _⟩
  · have hlt : x0 < t := lt_of_le_of_ne h0 (Ne.symm h2)
    push Not at h1
    have hd : 0 < x1 - x0 := by linarith
    set w := (t - x0) / (x1 - x0) with hw
    have hw0 : 0 ≤ w := div_nonneg (by linarith) hd.le
    have hw1 : w ≤ 1 := by rw [hw, div_le_one hd]; linarith
    have e : (y1 - y0) / (x1 - x0) * (t - x0) + y0 = y0 * (1 - w) + y1 * w := by
      rw [hw]; field_simp; ring
    rw [e]
    have a1 := min_le_left y0 y1; have a2 := min_le_right y0 y1
    have b1 := le_max_left y0 y1; have b2 := le_max_right y0 y1
    constructor
    · nlinarith [mul_le_mul_of_nonneg_right a1 (sub_nonneg.2 hw1), mul_le_mul_of_nonneg_right a2 hw0]
    · nlinarith [mul_le_mul_of_nonneg_right b1 (sub_nonneg.2 hw1), mul_le_mul_of_nonneg_right b2 hw0]

theorem interp2_mono {x0 x1 y0 y1 s t : K} (hy : y0 ≤ y1) (h0 : x0 ≤ s) (hst : s ≤ t) :
    interp2 x0 x1 y0 y1 s ≤ interp2 x0 x1 y0 y1 t := by
  by_cases ht : x1 ≤ t
  · have : interp2 x0 x1 y0 y1 t = y1 := by simp [interp2, ht]
    rw [this]
    have := (interp2_between (x1 := x1) (y0 := y0) (y1 := y1) h0).2
    rwa [max_eq_right hy] at this
  · push Not at ht
    have hs : ¬ x1 ≤ s := not_le.2 (lt_of_le_of_lt hst ht)
    by_cases hs0 : s = x0
    · have : interp2 x0 x1 y0 y1 s = y0 := by simp [interp2, hs, hs0]; intro h; exact absurd (hs0 ▸ h) hs
      rw [this]
      have := (interp2_between (x1 := x1) (y0 := y0) (y1 := y1) (h0.trans hst)).1
      rwa [min_eq_left hy] at this
    · have ht0 : t ≠ x0 := fun h => hs0 (le_antisymm (h ▸ hst) h0)
      simp only [interp2, hs, if_false, hs0, not_le.2 ht, ht0]
      have hd : 0 < x1 - x0 := by
        have := lt_of_le_of_ne h0 (Ne.symm hs0)
        linarith
      have : (y1 - y0) / (x1 - x0) * (s - x0) ≤ (y1 - y0) / (x1 - x0) * (t - x0) := by
        apply mul_le_mul_of_nonneg_left (by linarith)
        exact div_nonneg (by linarith) hd.le
      linarith

end

/-! ## Beams -/

/-- What is known of a beam of a mesh. -/
structure IsBeamOf (mat : Mat K) (rows : List (MeshRow K)) (b : Beam K) : Prop where
  lt : b.i < b.j
  rows : ∃ r p, rows[b.i]? = some r ∧ rows[b.j]? = some p ∧ r.beam = (b.j : Int) ∧ b.l = p.s - r.s ∧
    0 ≤ r.fiber ∧ mat.fibers[r.fiber.toNat]? = some b.fiber

theorem beams_spec {mat : Mat K} {rows : List (MeshRow K)} {bs : List (Beam K)} (h : beams mat rows = .ok bs) :
    (∀ b ∈ bs, IsBeamOf mat rows b) ∧ (∀ i, StartsBeam rows i → ∃ b ∈ bs, b.i = i) ∧ (bs.map (·.i)).Nodup := by
  unfold beams at h
  rw [mapM_forall₂] at h
  set L := rows.zipIdx.filter (fun p => (p.2 : Int) < p.1.beam) with hL
  have hR : ∀ (p : MeshRow K × ℕ) (b : Beam K), p ∈ L →
      (match (if p.1.fiber < 0 then none else mat.fibers[p.1.fiber.toNat]?), rows[p.1.beam.toNat]? with
      | some f, some r => Except.ok ⟨p.2, p.1.beam.toNat, r.s - p.1.s, f⟩
      | _, _ => Except.error Err.keyError) = Except.ok b → b.i = p.2 ∧ IsBeamOf mat rows b := by
    intro p b hp hb
    rw [hL, List.mem_filter, List.mem_zipIdx_iff_getElem?] at hp
    obtain ⟨hp1, hp2⟩ := hp
    have hp2 : (p.2 : Int) < p.1.beam := by simpa using hp2
    by_cases hneg : p.1.fiber < 0
    · simp [hneg] at hb
    · simp only [hneg, if_false] at hb
      cases hf : mat.fibers[p.1.fiber.toNat]? with
      | none => simp [hf] at hb
      | some f =>
        cases hr : rows[p.1.beam.toNat]? with
        | none => simp [hf, hr] at hb
        | some r =>
          simp only [hf, hr, Except.ok.injEq] at hb
          subst hb
          refine ⟨rfl, by change p.2 < p.1.beam.toNat; omega, p.1, r, hp1, hr, ?_, rfl, by omega, hf⟩
          change p.1.beam = (p.1.beam.toNat : Int); omega
  refine ⟨?_, ?_, ?_⟩
  · intro b hb
    obtain ⟨k, hk⟩ := List.mem_iff_getElem?.1 hb
    obtain ⟨hlt, hk⟩ := List.getElem?_eq_some_iff.1 hk
    have hlen := h.length_eq
    have hg := (List.forall₂_iff_get.1 h).2 k (by omega) hlt
    have e : bs.get ⟨k, hlt⟩ = b := hk
    rw [e] at hg
    exact (hR _ b (List.get_mem L ⟨k, by omega⟩) hg).2
  · rintro i ⟨r, hr, hlt⟩
    have hmem : (r, i) ∈ L := by
      rw [hL, List.mem_filter, List.mem_zipIdx_iff_getElem?]
      exact ⟨hr, by simpa using hlt⟩
    obtain ⟨k, hk⟩ := List.mem_iff_getElem?.1 hmem
    obtain ⟨hlt', hk⟩ := List.getElem?_eq_some_iff.1 hk
    have hlen := h.length_eq
    have hg := (List.forall₂_iff_get.1 h).2 k hlt' (by omega)
    refine ⟨_, List.get_mem bs ⟨k, by omega⟩, ?_⟩
    have e : L.get ⟨k, hlt'⟩ = (r, i) := hk
    have := (hR _ _ (List.get_mem L ⟨k, hlt'⟩) hg).1
    rw [this, e]
  · have e : bs.map (·.i) = L.map (·.2) := by
      clear_value L
      have : ∀ (L : List (MeshRow K × ℕ)) (bs : List (Beam K)), List.Forall₂ (fun a b => b.i = a.2) L bs →
          bs.map (·.i) = L.map (·.2) := by
        intro L bs h
        induction h with
        | nil => rfl
        | cons h _ ih => simp [h, ih]
      apply this
      rw [List.forall₂_iff_get] at h ⊢
      exact ⟨h.1, fun k h1 h2 => (hR _ _ (List.get_mem L ⟨k, h1⟩) (h.2 k h1 h2)).1⟩
    rw [e]
    have hsub : (L.map (·.2)).Sublist (rows.zipIdx.map (·.2)) := (List.filter_sublist).map _
    refine hsub.nodup ?_
    rw [List.zipIdx_map_snd]
    exact List.nodup_range' ..

theorem beams_total {mat : Mat K} {rows : List (MeshRow K)} (ho : OverFibers mat rows) (hb : BeamsCyclic rows) :
    ∃ bs, beams mat rows = .ok bs := by
  apply mapM_ok_of
  intro p hp
  rw [List.mem_filter, List.mem_zipIdx_iff_getElem?] at hp
  obtain ⟨hp1, hp2⟩ := hp
  obtain ⟨h1, h2⟩ := ho p.1 (List.mem_of_getElem? hp1)
  obtain ⟨j, hj, r, q, -, hq, -⟩ := hb p.2 p.1 hp1
  have e1 : mat.fibers[p.1.fiber.toNat]? = some (mat.fibers[p.1.fiber.toNat]'(by omega)) := by
    rw [List.getElem?_eq_getElem]
  have e2 : rows[p.1.beam.toNat]? = some q := by rw [hj]; simpa using hq
  rw [if_neg (by omega), e1, e2]
  exact ⟨_, rfl⟩

/-- In a valid mesh the beams join successive nodes of the same fiber. -/
theorem beam_next {rows : List (MeshRow K)} (hb : BeamsCyclic rows) {i j : ℕ} {r : MeshRow K}
    (hr : rows[i]? = some r) (hj : r.beam = (j : Int)) (hlt : i < j) :
    j = i + 1 ∧ ∃ p, rows[j]? = some p ∧ p.fiber = r.fiber := by
  obtain ⟨j', hj', r', p, hr', hp, hf, hc⟩ := hb i r hr
  have : j' = j := by omega
  subst this
  rw [hr] at hr'; cases hr'
  rcases hc with ⟨-, h⟩ | ⟨⟨r'', hr'', hlast⟩, -⟩
  · exact ⟨h, p, hp, hf⟩
  · rw [hr] at hr''; cases hr''
    exact absurd hf (hlast j' p hlt hp)

/-- In a valid mesh a node followed by a node of the same fiber starts a beam. -/
theorem starts_of_next {rows : List (MeshRow K)} (hb : BeamsCyclic rows) {i : ℕ} {r p : MeshRow K}
    (hr : rows[i]? = some r) (hp : rows[i + 1]? = some p) (hf : p.fiber = r.fiber) :
    StartsBeam rows i ∧ r.beam = ((i + 1 : ℕ) : Int) := by
  obtain ⟨j', hj', r', p', hr', hp', hf', hc⟩ := hb i r hr
  rcases hc with ⟨-, h⟩ | ⟨⟨r'', hr'', hlast⟩, -⟩
  · subst h; exact ⟨⟨r, hr, by omega⟩, hj'⟩
  · rw [hr] at hr''; cases hr''
    exact absurd hf (hlast (i + 1) p (by omega) hp)

/-! ## The assembled matrix -/

/-- What `stiffness` computes. -/
theorem stiffness_eq {mat : Mat K} {mesh : Mesh K} {lmin lmax : Option K} {c : K} {Km : Coo (Cell K)}
    (h : stiffness mat mesh lmin lmax c = .ok Km) :
    matCheck mat.frame = .ok () ∧ meshCheck mesh.frame = .ok () ∧ ∃ bs ls, beams mat mesh.rows = .ok bs ∧
      rescale lmin lmax (bs.map (·.l)) = .ok ls ∧
      Km = ⟨2 * mesh.rows.length, 2 * mesh.rows.length, (bs.zip ls).flatMap (fun p =>
             beamEntries p.1.i p.1.j (coeffs p.1.fiber p.2 c))⟩ := by
  unfold stiffness at h
  cases h1 : matCheck mat.frame with
  | error e => rw [h1] at h; cases h
  | ok _ =>
    rw [h1] at h
    cases h2 : meshCheck mesh.frame with
    | error e => rw [h2] at h; cases h
    | ok _ =>
      rw [h2] at h
      cases h3 : beams mat mesh.rows with
      | error e => rw [h3] at h; cases h
      | ok bs =>
        rw [h3] at h
        cases h4 : rescale lmin lmax (bs.map (·.l)) with
        | error e =>
          have h4' := h4
          change (rescale lmin lmax (bs.map (·.l)) >>= _) = _ at h
          rw [h4'] at h; cases h
        | ok ls =>
          change (rescale lmin lmax (bs.map (·.l)) >>= _) = _ at h
          rw [h4] at h
          cases h
          exact ⟨rfl, rfl, bs, ls, rfl, h4, rfl⟩

theorem stiffness_of {mat : Mat K} {mesh : Mesh K} {lmin lmax : Option K} {c : K} {bs : List (Beam K)} {ls : List K}
    (h1 : matCheck mat.frame = .ok ()) (h2 : meshCheck mesh.frame = .ok ()) (h3 : beams mat mesh.rows = .ok bs)
    (h4 : rescale lmin lmax (bs.map (·.l)) = .ok ls) : ∃ Km, stiffness mat mesh lmin lmax c = .ok Km := by
  unfold stiffness
  rw [h1, h2, h3]
  change ∃ Km, (rescale lmin lmax (bs.map (·.l)) >>= _) = _
  rw [h4]
  exact ⟨_, rfl⟩

section
variable [IsStrictOrderedRing K]

theorem rescale_length {lmin lmax : Option K} {ls out : List K} (h : rescale lmin lmax ls = .ok out) :
    out.length = ls.length := by
  obtain ⟨a, b, lo, hi, -, -, -, -, rfl⟩ := rescale_eq h
  simp

theorem positiveLengths_raw {rows : List (MeshRow K)} (h : ∀ i, StartsBeam rows i → 0 < beamLength rows i) :
    PositiveLengths rows none none :=
  ⟨by simp, by simp, fun _ => h, fun _ ⟨i, hi⟩ => ⟨i, hi, h i hi⟩⟩

theorem rescale_pos {mat : Mat K} {rows : List (MeshRow K)} {lmin lmax : Option K} {bs : List (Beam K)} {ls : List K}
    (hp : PositiveLengths rows lmin lmax) (hb : beams mat rows = .ok bs)
    (h : rescale lmin lmax (bs.map (·.l)) = .ok ls) : ∀ x ∈ ls, 0 < x := by
  obtain ⟨a, b, lo, hi, ha, hb', hlo, hhi, rfl⟩ := rescale_eq h
  obtain ⟨ha1, ha2⟩ := npMin_le ha
  obtain ⟨hb1, hb2⟩ := npMax_ge hb'
  have hlen : ∀ q ∈ bs, StartsBeam rows q.i ∧ beamLength rows q.i = q.l := by
    intro q hq
    obtain ⟨hlt, r, p, hr, hp', hj, hl, -, -⟩ := (beams_spec hb).1 q hq
    exact ⟨⟨r, hr, by omega⟩, by simp [beamLength, abscissa, succNode, hr, hj, hp', hl]⟩
  have hraw : lmin = none → ∀ x ∈ bs.map (·.l), 0 < x := by
    intro hn x hx
    obtain ⟨q, hq, rfl⟩ := List.mem_map.1 hx
    obtain ⟨h1, h2⟩ := hlen q hq
    rw [← h2]
    exact hp.raw hn q.i h1
  have htop : lmax = none → 0 < b := by
    intro hn
    obtain ⟨q, hq, -⟩ := List.mem_map.1 hb1
    obtain ⟨i, hi, hpos⟩ := hp.top hn ⟨q.i, (hlen q hq).1⟩
    obtain ⟨p, hpm, rfl⟩ := (beams_spec hb).2.1 i hi
    rw [(hlen p hpm).2] at hpos
    exact lt_of_lt_of_le hpos (hb2 _ (List.mem_map_of_mem hpm))
  have hlo' : 0 < lo := by
    cases lmin with
    | some v => simp only [Option.getD_some] at hlo; rw [hlo]; exact hp.lo v rfl
    | none => simp only [Option.getD_none] at hlo; rw [hlo]; exact hraw rfl a ha1
  have hhi' : 0 < hi := by
    cases lmax with
    | some v => simp only [Option.getD_some] at hhi; rw [hhi]; exact hp.hi v rfl
    | none => simp only [Option.getD_none] at hhi; rw [hhi]; exact htop rfl
  intro x hx
  obtain ⟨t, ht, rfl⟩ := List.mem_map.1 hx
  exact lt_of_lt_of_le (lt_min hlo' hhi') (interp2_between ((min_le_left _ _).trans (ha2 t ht))).1

end

/-- The triplets of one beam with numbers. -/
def numEntries (i j : Nat) (k0 k1 k2 k4 : K) : List (Nat × Nat × K) :=
  [ (2 * i, 2 * i, k0), (2 * i, 2 * i + 1, k1), (2 * i, 2 * j, -k0), (2 * i, 2 * j + 1, k1),
    (2 * i + 1, 2 * i, k1), (2 * i + 1, 2 * i + 1, k2), (2 * i + 1, 2 * j, -k1), (2 * i + 1, 2 * j + 1, -k4),
    (2 * j, 2 * i, -k0), (2 * j, 2 * i + 1, -k1), (2 * j, 2 * j, k0), (2 * j, 2 * j + 1, -k1),
    (2 * j + 1, 2 * i, k1), (2 * j + 1, 2 * i + 1, -k4), (2 * j + 1, 2 * j, -k1), (2 * j + 1, 2 * j + 1, k2) ]

/-- Embedding of triplets. -/
def toCell (e : Nat × Nat × K) : Nat × Nat × Cell K := (e.1, e.2.1, .fin e.2.2)

theorem beamEntries_num (i j : Nat) (k0 k1 k2 k4 : K) :
    beamEntries i j ⟨.fin k0, .fin k1, .fin k2, .fin k4⟩ = (numEntries i j k0 k1 k2 k4).map toCell := by
  simp [beamEntries, numEntries, toCell]

theorem get_map_toCell (n m : Nat) (es : List (Nat × Nat × K)) (r c : Nat) :
    Coo.get ⟨n, m, es.map toCell⟩ r c = .fin (Coo.get ⟨n, m, es⟩ r c) := by
  unfold Coo.get
  simp only [List.filter_map, List.map_map]
  rw [← Cell.sum_fin, List.map_map]
  rfl

/-- The tensile modulus, if finite. -/
def tensile (f : Fiber K) : K := match f.E with | none => 0 | some e => e

/-- `k2` as a number. -/
def stiff2 (f : Fiber K) (l : K) : K :=
  stiff0 f l * (l * l) / 3 + stiff0 f l * (tensile f / f.G) * (f.h * f.h)

/-- The triplets of all beams with numbers. -/
def allEntries (c : K) (bl : List (Beam K × K)) : List (Nat × Nat × K) :=
  bl.flatMap (fun p => numEntries p.1.i p.1.j (stiff0 p.1.fiber p.2) (stiff0 p.1.fiber p.2 * p.2 / 2 * c)
    (stiff2 p.1.fiber p.2) (stiff2 p.1.fiber p.2 - stiff0 p.1.fiber p.2 * (p.2 * p.2) / 2))

section
variable [IsStrictOrderedRing K]

theorem entries_num (c : K) {bl : List (Beam K × K)} (hl : ∀ p ∈ bl, 0 < p.2) (hs : ∀ p ∈ bl, Solid p.1.fiber)
    (he : ∀ p ∈ bl, p.1.fiber.E ≠ ⊤) :
    bl.flatMap (fun p => beamEntries p.1.i p.1.j (coeffs p.1.fiber p.2 c)) = (allEntries c bl).map toCell := by
  unfold allEntries
  rw [List.map_flatMap]
  apply List.flatMap_congr
  intro p hp
  rw [← beamEntries_num]
  obtain ⟨e, hE⟩ := WithTop.ne_top_iff_exists.1 (he p hp)
  have hE' : p.1.fiber.E = some e := hE.symm
  rw [coeffs_some (hs p hp) (hl p hp) c hE']
  simp only [stiff2, tensile, hE']

end

/-- Product of a matrix with two vectors. -/
theorem coo_bilin (n m N : Nat) (es : List (Nat × Nat × K)) (h1 : ∀ e ∈ es, e.1 < N) (h2 : ∀ e ∈ es, e.2.1 < N)
    (u v : ℕ → K) :
    ∑ r ∈ Finset.range N, ∑ c ∈ Finset.range N, u r * Coo.get ⟨n, m, es⟩ r c * v c =
      (es.map (fun e => u e.1 * e.2.2 * v e.2.1)).sum := by
  induction es with
  | nil => simp [Coo.get]
  | cons e es ih =>
    have ih := ih (fun e' he' => h1 e' (List.mem_cons_of_mem _ he')) (fun e' he' => h2 e' (List.mem_cons_of_mem _ he'))
    simp only [coo_get_cons, mul_add, add_mul, Finset.sum_add_distrib, ih, List.map_cons, List.sum_cons]
    have he1 : e.1 < N := h1 e (by simp)
    have he2 : e.2.1 < N := h2 e (by simp)
    congr 1
    rw [Finset.sum_eq_single e.1]
    · rw [Finset.sum_eq_single e.2.1]
      · simp
      · intro c _ hc
        rw [if_neg (fun h => hc h.2.symm)]; simp
      · intro h; exact absurd (Finset.mem_range.2 he2) h
    · intro r _ hr
      apply Finset.sum_eq_zero
      intro c _
      rw [if_neg (fun h => hr h.1.symm)]; simp
    · intro h; exact absurd (Finset.mem_range.2 he1) h

theorem sum_map_flatMap {α β : Type} {M : Type} [AddCommMonoid M] (f : α → List β) (g : β → M) (l : List α) :
    ((l.flatMap f).map g).sum = (l.map (fun a => ((f a).map g).sum)).sum := by
  induction l with
  | nil => rfl
  | cons a l ih => simp [List.flatMap_cons, ih]

end Fibermat
