import Verif.Props.LoadPicture

/-! # C96: what the picture of the loads shows -/

set_option linter.unusedSectionVars false

namespace Fibermat
open Spec
variable {K : Type} [Field K] [LinearOrder K] [IsStrictOrderedRing K]

theorem weight_pos {m : Mat K} (h : GoodMat m) {i : ℕ} (hi : i < m.fibers.length) : 0 < weight m i := by
  obtain ⟨S, -, hg⟩ := h.size
  have g := hg _ (List.getElem_mem hi)
  have e : weight m i = npPi / 4 * (m.fibers[i].l * m.fibers[i].b * m.fibers[i].h) := by simp [weight, List.getElem?_eq_getElem hi]
  rw [e]
  have h1 := g.l
  have h2 := g.b
  have h3 := g.h
  have := npPi_pos (K := K)
  positivity

theorem meanWeight_pos {m : Mat K} (h : GoodMat m) (hne : m.fibers ≠ []) : 0 < meanWeight m := by
  have hl : 0 < m.fibers.length := List.length_pos_of_ne_nil hne
  refine div_pos (Finset.sum_pos (fun i hi => weight_pos h (Finset.mem_range.1 hi)) ⟨0, Finset.mem_range.2 hl⟩) (by exact_mod_cast hl)

theorem meanWeight_same {m m' : Mat K} (h : SameExceptZ m m') : meanWeight m' = meanWeight m := by
  unfold meanWeight
  rw [same_length h]
  congr 1
  exact Finset.sum_congr rfl (fun i _ => same_weight h i)

/-- C96: an empty mat has no solution to look at. -/
theorem C96_empty (lin : LinprogSol K) {m : Mat K} (h : GoodMat m) (he : m.fibers = []) (periodic : Bool) :
    loadPicture lin m periodic = .error Err.attributeError := by
  obtain ⟨net, hn, -⟩ := C06_netNew_ok h periodic
  obtain ⟨hck, ho, -⟩ := netNew_over h hn
  have hm := (matCheck_frame_iff m).2 (Or.inr h)
  have hst := (stackNew_empty (lin := fun p => (lin p).map (·.x)) h hck ho he none).1
  have hso : stackSolution lin m net = .ok none := by
    unfold stackSolution
    rw [hm, hck, stackConstraint_eq hm hck ho]
    simp only [Bind.bind, Except.bind, pure, Except.pure]
    rw [if_neg (by simp [he])]
  unfold loadPicture
  rw [hn]
  simp only [Bind.bind, Except.bind, hst, stackConstraint_eq hm hck ho, hso]
  rfl

/-- C96: for a non-empty set of planar fibers the block completes, and shows the lowest stacking of the fibers on each other. -/
theorem C96_picture {lin : LinprogSol K} (hlin : GoodLinprogSol lin) {m : Mat K} (h : GoodMat m) (hw : ∀ f ∈ m.fibers, f.w = 0)
    (hne : m.fibers ≠ []) (periodic : Bool) :
    ∃ P, loadPicture lin m periodic = .ok P ∧ SameExceptZ m P.mat ∧
      ∃ net, netNew m periodic = .ok net ∧ planColumns P.stack.rows = planColumns net.rows ∧ Lowest m net.rows (heightOf P.mat) := by
  obtain ⟨P, lo, hi, N, h1, h2, ⟨net, h3, h4, h5, -⟩, -⟩ := loadPicture_eq hlin h hw hne periodic
  exact ⟨P, h1, h2, net, h3, h4, h5⟩

section
variable {lin : LinprogSol K} (hlin : GoodLinprogSol lin) {m : Mat K} (h : GoodMat m) (hw : ∀ f ∈ m.fibers, f.w = 0)
  (hne : m.fibers ≠ []) {periodic : Bool} {P : LoadPicture K} (hP : loadPicture lin m periodic = .ok P)
include hlin h hw hne hP

theorem inner_labels_of {n : ℕ} {rows : List (NetRow K)} (ho : ∀ r ∈ rows, 0 ≤ r.A ∧ r.A ≤ r.B ∧ r.B < (n : Int)) :
    ∀ r ∈ innerRows rows, 0 ≤ r.A ∧ r.A < r.B ∧ r.B < (n : Int) := by
  intro r hr
  have h1 := List.mem_filter.1 hr
  have := ho r h1.1
  have h2 : r.A < r.B := by simpa using h1.2
  exact ⟨this.1, h2, this.2.2⟩

/-- C96: the opposites of the forces are pushes at touching fibers that hold every fiber, with pushes of the floor that sum to the whole
weight; the load of a fiber is minus the push it receives from above, in mean fiber weights. -/
theorem C96_loads :
    ∃ N, Held P.mat (innerRows P.stack.rows) (P.force.map (fun v => -v)) N ∧
      ∑ i ∈ Finset.range P.mat.fibers.length, N i = ∑ i ∈ Finset.range P.mat.fibers.length, weight P.mat i ∧
      P.load.length = P.mat.fibers.length ∧
      ∀ i, i < P.mat.fibers.length →
        P.load[i]? = some (-pressOn (innerRows P.stack.rows) (P.force.map (fun v => -v)) i / meanWeight P.mat) := by
  obtain ⟨P', lo, hi, N, h1, h2, h3, h4, h5, h6, h7, -⟩ := loadPicture_eq hlin h hw hne periodic
  rw [hP] at h1
  cases h1
  refine ⟨N, h6, held_total h6 (inner_labels_of hlin h hw hne hP h4), by rw [h7]; simp, fun i hi => ?_⟩
  rw [h7]
  simp [hi, meanWeight]

/-- C96: a load is a pull on the scale of the picture: at most zero, and at least minus the weight of the fibers that come later. -/
theorem C96_range {i : ℕ} (hi : i < P.mat.fibers.length) :
    ∃ v, P.load[i]? = some v ∧ -(∑ j ∈ Finset.Ioo i P.mat.fibers.length, weight P.mat j) / meanWeight P.mat ≤ v ∧ v ≤ 0 := by
  obtain ⟨P', lo, hi', N, h1, h2, h3, h4, h5, h6, h7, -⟩ := loadPicture_eq hlin h hw hne periodic
  rw [hP] at h1
  cases h1
  obtain ⟨-, -, -, -, hl⟩ := C96_loads hlin h hw hne hP
  have hm : 0 < meanWeight P.mat := by rw [meanWeight_same h2]; exact meanWeight_pos h hne
  obtain ⟨b1, b2⟩ := held_bound h6 (inner_labels_of hlin h hw hne hP h4) i
  refine ⟨_, hl i hi, ?_, ?_⟩
  · rw [div_le_div_iff_of_pos_right hm]
    linarith
  · exact div_nonpos_of_nonpos_of_nonneg (by linarith) hm.le

/-- C96: among fibers of equal weight, fiber `i` of `n` carries at most `n - 1 - i` times its own weight. -/
theorem C96_identical {w : K} (heq : ∀ i, i < P.mat.fibers.length → weight P.mat i = w) {i : ℕ} (hi : i < P.mat.fibers.length) :
    ∃ v, P.load[i]? = some v ∧ -((P.mat.fibers.length - 1 - i : ℕ) : K) ≤ v ∧ v ≤ 0 := by
  obtain ⟨v, e, a, b⟩ := C96_range hlin h hw hne hP hi
  refine ⟨v, e, ?_, b⟩
  obtain ⟨P', lo, hi', N, h1, h2, -⟩ := loadPicture_eq hlin h hw hne periodic
  rw [hP] at h1
  cases h1
  have hm : 0 < meanWeight P.mat := by rw [meanWeight_same h2]; exact meanWeight_pos h hne
  have hn : (0 : K) < P.mat.fibers.length := by exact_mod_cast (by omega : 0 < P.mat.fibers.length)
  have e1 : meanWeight P.mat = w := by
    unfold meanWeight
    rw [Finset.sum_congr rfl (fun i hi => heq i (Finset.mem_range.1 hi)), Finset.sum_const, Finset.card_range, nsmul_eq_mul]
    field_simp
  have e2 : ∑ j ∈ Finset.Ioo i P.mat.fibers.length, weight P.mat j = ((P.mat.fibers.length - 1 - i : ℕ) : K) * w := by
    rw [Finset.sum_congr rfl (fun j hj => heq j (Finset.mem_Ioo.1 hj).2), Finset.sum_const, Nat.card_Ioo, nsmul_eq_mul]
    congr 2
    omega
  rw [e2, e1] at a
  rw [e1] at hm
  have : -(((P.mat.fibers.length - 1 - i : ℕ) : K) * w) / w = -((P.mat.fibers.length - 1 - i : ℕ) : K) := by
    field_simp
  rwa [this] at a

/-- C96: the last fiber carries nothing, so zero is the top of the scale. -/
theorem C96_top : P.load[P.mat.fibers.length - 1]? = some 0 ∧ P.load.max? = some 0 := by
  obtain ⟨P', lo, hi, N, h1, h2, -⟩ := loadPicture_eq hlin h hw hne periodic
  rw [hP] at h1
  cases h1
  have hlen := same_length h2
  have hpos : 0 < m.fibers.length := List.length_pos_of_ne_nil hne
  obtain ⟨v, e, a, b⟩ := C96_range hlin h hw hne hP (i := P.mat.fibers.length - 1) (by omega)
  have : Finset.Ioo (P.mat.fibers.length - 1) P.mat.fibers.length = ∅ := by
    apply Finset.eq_empty_of_forall_notMem
    intro j hj
    have := Finset.mem_Ioo.1 hj
    omega
  rw [this, Finset.sum_empty, neg_zero, zero_div] at a
  have hv : v = 0 := le_antisymm b a
  rw [hv] at e
  refine ⟨e, List.max?_eq_some_iff.2 ⟨List.mem_of_getElem? e, fun x hx => ?_⟩⟩
  obtain ⟨k, hk⟩ := List.mem_iff_getElem?.1 hx
  obtain ⟨-, -, -, hL, -⟩ := C96_loads hlin h hw hne hP
  have hkl : k < P.load.length := (List.getElem?_eq_some_iff.1 hk).1
  obtain ⟨v', e', -, b'⟩ := C96_range hlin h hw hne hP (i := k) (by omega)
  rw [hk] at e'
  cases e'
  exact b'

/-- C96: every fiber is drawn once, between its two ends, with a colour that grows with its load: from 0 for the most loaded fiber (if any
fiber is loaded) to 1 for the fibers that carry nothing. -/
theorem C96_colors :
    P.fibers.length = P.mat.fibers.length ∧ ∀ (i : ℕ) (f : Fiber K) (v : K), P.mat.fibers[i]? = some f → P.load[i]? = some v →
      ∃ c, P.fibers[i]? = some (pointAt f (-(f.l / 2)), pointAt f (f.l / 2), .fin c) ∧ 0 ≤ c ∧ c ≤ 1 ∧
        (c = 1 ↔ v = 0) ∧ (c = 0 ↔ v ≠ 0 ∧ P.load.min? = some v) ∧
        ∀ (j : ℕ) (v' : K), P.load[j]? = some v' → v ≤ v' → ∃ a b c', P.fibers[j]? = some (a, b, .fin c') ∧ c ≤ c' := by
  obtain ⟨P', lo, hi, N, h1, h2, h3, h4, h5, h6, h7, g1, g2, g3, g4, -⟩ := loadPicture_eq hlin h hw hne periodic
  rw [hP] at h1
  cases h1
  obtain ⟨-, -, -, hL, -⟩ := C96_loads hlin h hw hne hP
  have htop := (C96_top hlin h hw hne hP).2
  have hhi : hi = 0 := by
    have := List.max?_eq_some_iff.1 htop
    exact le_antisymm (this.2 _ g2) (g3 _ this.1).2
  subst hhi
  have hmin : P.load.min? = some lo := List.min?_eq_some_iff.2 ⟨g1, fun x hx => (g3 x hx).1⟩
  set col : K → K := fun v => if v = 0 then 1 else (v - lo) / (0 - lo) with hcol
  have get : ∀ (i : ℕ) (f : Fiber K) (v : K), P.mat.fibers[i]? = some f → P.load[i]? = some v →
      P.fibers[i]? = some (drawnEnd f (-1), drawnEnd f 1, .fin (col v)) := by
    intro i f v e1 e2
    have ez : (P.mat.fibers.zip P.load)[i]? = some (f, v) := List.getElem?_zip_eq_some.2 ⟨e1, e2⟩
    rw [g4, List.getElem?_map, ez]
    rfl
  have bounds : ∀ v ∈ P.load, 0 ≤ col v ∧ col v ≤ 1 ∧ (col v = 1 ↔ v = 0) ∧ (col v = 0 ↔ v ≠ 0 ∧ v = lo) := by
    intro v hv
    obtain ⟨a, b⟩ := g3 v hv
    by_cases hv0 : v = 0
    · simp [hcol, hv0]
    · have hlo : 0 < 0 - lo := by
        have : v < 0 := lt_of_le_of_ne b hv0
        linarith
      simp only [hcol, hv0, if_false, ne_eq, not_false_eq_true, true_and]
      refine ⟨div_nonneg (by linarith) hlo.le, by rw [div_le_one hlo]; linarith, ?_, ?_⟩
      · rw [div_eq_one_iff_eq hlo.ne']
        constructor
        · intro e; exact absurd (by linarith) hv0
        · intro e; exact absurd e (by tauto)
      · rw [div_eq_zero_iff]
        constructor
        · rintro (e | e)
          · linarith
          · exact absurd e hlo.ne'
        · intro e; left; linarith
  have mono : ∀ v ∈ P.load, ∀ v' ∈ P.load, v ≤ v' → col v ≤ col v' := by
    intro v hv v' hv' hle
    by_cases hv0 : v' = 0
    · have := (bounds v hv).2.1
      simpa [hcol, hv0] using this
    · have b' := (g3 v' hv').2
      have a' := (g3 v' hv').1
      have : v' < 0 := lt_of_le_of_ne b' hv0
      have hvn : v ≠ 0 := by intro e; linarith
      have a := (g3 v hv).1
      simp only [hcol, hv0, hvn, if_false]
      rw [div_le_div_iff_of_pos_right (by linarith)]
      linarith
  refine ⟨by rw [g4]; simp [hL], fun i f v e1 e2 => ?_⟩
  have hv := List.mem_of_getElem? e2
  obtain ⟨c1, c2, c3, c4⟩ := bounds v hv
  refine ⟨col v, ?_, c1, c2, c3, ?_, ?_⟩
  · rw [get i f v e1 e2]
    congr 1
    simp only [drawnEnd, pointAt, Prod.mk.injEq]
    refine ⟨⟨?_, ?_, ?_⟩, ⟨?_, ?_, ?_⟩, trivial⟩ <;> ring
  · rw [c4, hmin]
    simp [eq_comm]
  · intro j v' e' hle
    have hj : j < P.mat.fibers.length := by rw [← hL]; exact (List.getElem?_eq_some_iff.1 e').1
    exact ⟨_, _, _, get j _ v' (List.getElem?_eq_getElem hj) e', mono v hv v' (List.mem_of_getElem? e') hle⟩

/-- C96: the contacts drawn are those that carry a force above the tolerance of `np.isclose`, each once; they join touching fibers. -/
theorem C96_contacts :
    P.force.length = (innerRows P.stack.rows).length ∧
      P.contacts = (((innerRows P.stack.rows).zip P.force).filter (fun p => 1 / 100000000 < -p.2)).map (·.1) ∧
      ∀ r ∈ P.contacts, Touches P.mat r ∧ r.zB - r.zA = (thick P.mat r.A.toNat + thick P.mat r.B.toNat) / 2 := by
  obtain ⟨P', lo, hi, N, h1, h2, h3, h4, h5, h6, h7, g1, g2, g3, g4, g5⟩ := loadPicture_eq hlin h hw hne periodic
  rw [hP] at h1
  cases h1
  have hsz : P.force.length = (innerRows P.stack.rows).length := by simpa using h6.size
  have hneg : ∀ v ∈ P.force, v ≤ 0 := fun v hv => by
    have := h6.push (-v) (List.mem_map.2 ⟨v, hv, rfl⟩)
    linarith
  refine ⟨hsz, ?_, ?_⟩
  · rw [g5]
    congr 1
    apply List.filter_congr
    rintro ⟨r, v⟩ hp
    have := hneg v (List.of_mem_zip hp).2
    simp only [abs_of_nonpos this, not_le]
  · intro r hr
    rw [g5] at hr
    obtain ⟨⟨r', v⟩, hp, e⟩ := List.mem_map.1 hr
    simp only at e
    subst e
    obtain ⟨hp1, hp2⟩ := List.mem_filter.1 hp
    have hv : v ≠ 0 := by
      intro e
      rw [e] at hp2
      norm_num at hp2
    have ht : Touches P.mat r' := by
      refine h6.touch (r', -v) ?_ (by simpa using hv)
      rw [List.zip_map_right]
      exact List.mem_map.2 ⟨(r', v), hp1, rfl⟩
    have hin : r' ∈ P.stack.rows := (List.mem_filter.1 (List.of_mem_zip hp1).1).1
    obtain ⟨z1, z2⟩ := h5 r' hin
    refine ⟨ht, ?_⟩
    rw [z1, z2]
    exact ht

end

/-! ### The loads depend on the solver -/

/-- A correct solver exists, even one that gives a chosen correct answer to a chosen program. -/
theorem goodLinprogSol_exists (p₀ : LP K) (s₀ : LinSol K) (h₀ : Optimal p₀ s₀.x ∧ IsDual p₀ s₀.x s₀.marginals) :
    ∃ lin, GoodLinprogSol lin ∧ lin p₀ = some s₀ := by
  classical
  refine ⟨fun p => if p = p₀ then some s₀ else if hp : ∃ s : LinSol K, Optimal p s.x ∧ IsDual p s.x s.marginals then some hp.choose else none,
    ?_, by simp⟩
  rintro p ⟨z, d, h1, h2⟩
  by_cases e : p = p₀
  · subst e
    exact ⟨s₀, by simp, h₀⟩
  · have hp : ∃ s : LinSol K, Optimal p s.x ∧ IsDual p s.x s.marginals := ⟨⟨z, d⟩, h1, h2⟩
    exact ⟨hp.choose, by simp [e, hp], hp.choose_spec⟩

/-- Two fibers side by side and a third one across them. -/
def forkMat : Mat ℚ :=
  { fibers := [⟨10, 1, 1, 0, 3, 5, 1, 0, 0, 1, ⊤⟩, ⟨10, 1, 1, 0, -3, 5, 1, 0, 0, 1, ⊤⟩, ⟨10, 1, 1, 0, 0, 5, 0, 1, 0, 1, ⊤⟩]
    attrs := { n := some 3, size := some 20 } }

theorem forkMat_good : GoodMat forkMat := by
  have h : matCheck forkMat.frame = .ok () := by decide +kernel
  exact ((matCheck_frame_iff _).1 h).resolve_left (by simp [Skipped, forkMat])

theorem fork_rows {rows : List (NetRow ℚ)} (h : rows.map (fun r => (r.A, r.B)) = [(0, 2), (1, 2)]) :
    ∃ r q, rows = [r, q] ∧ r.A = 0 ∧ r.B = 2 ∧ q.A = 1 ∧ q.B = 2 := by
  have hl : rows.length = 2 := by simpa using congrArg List.length h
  obtain ⟨r, q, rfl⟩ := List.length_eq_two.1 hl
  simp only [List.map_cons, List.map_nil, List.cons.injEq, Prod.mk.injEq, and_true] at h
  exact ⟨r, q, rfl, h.1.1, h.1.2, h.2.1, h.2.2⟩

theorem fork_weight : ∀ i, i < 3 → weight forkMat i = npPi / 4 * 10 := by
  intro i hi
  interval_cases i <;> norm_num [weight, forkMat]

theorem fork_held {rows : List (NetRow ℚ)} (h : rows.map (fun r => (r.A, r.B)) = [(0, 2), (1, 2)]) {F₁ F₂ : ℚ} (h₁ : 0 ≤ F₁) (h₂ : 0 ≤ F₂)
    (hs : F₁ + F₂ = npPi / 4 * 10) : ∃ N, Held (forkMat.setZ [1 / 2, 1 / 2, 3 / 2]) rows [F₁, F₂] N := by
  obtain ⟨r, q, rfl, a1, a2, a3, a4⟩ := fork_rows h
  have hw : ∀ i, i < 3 → weight (forkMat.setZ [1 / 2, 1 / 2, 3 / 2]) i = npPi / 4 * 10 := by
    intro i hi
    rw [same_weight (setZ_same (by rfl))]
    exact fork_weight i hi
  have hpi := npPi_pos (K := ℚ)
  have hl : (forkMat.setZ [1 / 2, 1 / 2, 3 / 2]).fibers.length = 3 := by rfl
  have ht : ∀ i, i < 3 → thick (forkMat.setZ [1 / 2, 1 / 2, 3 / 2]) i = 1 := by decide +kernel
  have h0 : heightOf (forkMat.setZ [1 / 2, 1 / 2, 3 / 2]) 0 = 1 / 2 := by decide +kernel
  have h1 : heightOf (forkMat.setZ [1 / 2, 1 / 2, 3 / 2]) 1 = 1 / 2 := by decide +kernel
  have h2 : heightOf (forkMat.setZ [1 / 2, 1 / 2, 3 / 2]) 2 = 3 / 2 := by decide +kernel
  refine ⟨fun i => if i = 0 then npPi / 4 * 10 + F₁ else if i = 1 then npPi / 4 * 10 + F₂ else 0, by simp, ?_, ?_, ?_, ?_, ?_⟩
  · intro v hv
    simp only [List.mem_cons, List.not_mem_nil, or_false] at hv
    rcases hv with rfl | rfl <;> assumption
  · intro i _
    split_ifs <;> [positivity; positivity; exact le_rfl]
  · intro p hp _
    simp only [List.zip_cons_cons, List.zip_nil_right, List.mem_cons, List.not_mem_nil, or_false] at hp
    rcases hp with rfl | rfl
    · show Touches _ r
      unfold Touches
      rw [a1, a2]
      simp only [Int.toNat_zero, Int.reduceToNat, h0, h2, ht 0 (by omega), ht 2 (by omega)]
      norm_num
    · show Touches _ q
      unfold Touches
      rw [a3, a4]
      simp only [Int.toNat_one, Int.reduceToNat, h1, h2, ht 1 (by omega), ht 2 (by omega)]
      norm_num
  · intro i hi hne
    rw [hl] at hi
    rw [ht i hi]
    interval_cases i
    · exact h0
    · exact h1
    · simp at hne
  · intro i hi
    rw [hl] at hi
    rw [hw i hi]
    interval_cases i <;> simp [pressOn, pressUnder, a1, a2, a3, a4]
    linarith

theorem fork_net {net : Net ℚ} (hn : netNew forkMat true = .ok net) :
    (innerRows net.rows).map (fun r => (r.A, r.B)) = [(0, 2), (1, 2)] ∧ Lowest forkMat net.rows (comp [1 / 2, 1 / 2, 3 / 2]) := by
  obtain ⟨hck, ho, -⟩ := netNew_over forkMat_good hn
  have hg := greedy_lowest ho ((C06_increasing forkMat_good hn).imp (by intro a b hab; omega))
  have hgr : ((netNew forkMat true).toOption.map (fun n => ((innerRows n.rows).map (fun r => (r.A, r.B)),
      (List.range 3).map (greedy forkMat n.rows (fun i => thick forkMat i / 2))))) = some ([(0, 2), (1, 2)], [1 / 2, 1 / 2, 3 / 2]) := by
    decide +kernel
  rw [hn] at hgr
  simp only [Except.toOption, Option.map_some, Option.some.injEq, Prod.mk.injEq] at hgr
  refine ⟨hgr.1, ?_⟩
  have e : ∀ i, i < 3 → comp [1 / 2, 1 / 2, 3 / 2] i = greedy forkMat net.rows (fun i => thick forkMat i / 2) i := by
    intro i hi
    have := congrArg (fun l : List ℚ => l.getD i 0) hgr.2
    rw [comp, ← this]
    simp [List.getD_eq_getElem?_getD, hi]
  refine ⟨⟨fun i hi => by rw [e i hi]; exact hg.1.floor i hi, fun r hr hlt => ?_⟩, fun y hy i hi => by rw [e i hi]; exact hg.2 y hy i hi⟩
  have hh := ho r hr
  have hl : forkMat.fibers.length = 3 := rfl
  rw [e _ (by omega), e _ (by omega)]
  exact hg.1.gap r hr hlt

theorem fork_load {lin : LinprogSol ℚ} (hlin : GoodLinprogSol lin) {net : Net ℚ} (hn : netNew forkMat true = .ok net) {x : List ℚ} {a b : ℚ}
    (hl : lin (stackSysOf forkMat net).lp = some ⟨x, [a, b]⟩) :
    ∃ P, loadPicture lin forkMat true = .ok P ∧ P.load = [a / (npPi / 4 * 10), b / (npPi / 4 * 10), 0] := by
  have hne : forkMat.fibers ≠ [] := by simp [forkMat]
  have hw : ∀ f ∈ forkMat.fibers, f.w = 0 := by simp [forkMat]
  obtain ⟨P, lo, hi, N, h1, h2, ⟨net', h3, hplan, -, x', h5⟩, h6, h7, h8, h9, -⟩ := loadPicture_eq hlin forkMat_good hw hne true
  rw [hn] at h3
  cases h3
  rw [hl] at h5
  simp only [Option.some.injEq, LinSol.mk.injEq] at h5
  refine ⟨P, h1, ?_⟩
  have hAB := inner_plan hplan
  rw [(fork_net hn).1] at hAB
  obtain ⟨r, q, e, a1, a2, a3, a4⟩ := fork_rows hAB
  have hlen : P.mat.fibers.length = 3 := same_length h2
  have hm : (∑ i ∈ Finset.range 3, weight P.mat i) / ((3 : ℕ) : ℚ) = npPi / 4 * 10 := by
    rw [Finset.sum_congr rfl (fun i hi => (same_weight h2 i).trans (fork_weight i (Finset.mem_range.1 hi)))]
    simp
  rw [h9, hlen, hm, e, ← h5.2]
  simp [List.range_succ, pressOn, List.filter_cons, a1, a3]

/-- C96: the loads are not determined by the fibers. Two correct solvers show different pictures of the same fibers: one puts the whole
third fiber on the first one, the other on the second one. -/
theorem C96_not_unique :
    ∃ (lin₁ lin₂ : LinprogSol ℚ) (P₁ P₂ : LoadPicture ℚ), GoodLinprogSol lin₁ ∧ GoodLinprogSol lin₂ ∧
      loadPicture lin₁ forkMat true = .ok P₁ ∧ loadPicture lin₂ forkMat true = .ok P₂ ∧
      P₁.load = [-1, 0, 0] ∧ P₂.load = [0, -1, 0] := by
  obtain ⟨net, hn, -⟩ := C06_netNew_ok forkMat_good true
  obtain ⟨hck, ho, -⟩ := netNew_over forkMat_good hn
  obtain ⟨hr, hlow⟩ := fork_net hn
  have hpi := npPi_pos (K := ℚ)
  have key : ∀ F₁ F₂ : ℚ, 0 ≤ F₁ → 0 ≤ F₂ → F₁ + F₂ = npPi / 4 * 10 →
      ∃ (lin : LinprogSol ℚ) (P : LoadPicture ℚ), GoodLinprogSol lin ∧ loadPicture lin forkMat true = .ok P ∧
        P.load = [-F₁ / (npPi / 4 * 10), -F₂ / (npPi / 4 * 10), 0] := by
    intro F₁ F₂ h₁ h₂ hs
    have hopt : Optimal (stackSysOf forkMat net).lp [1 / 2, 1 / 2, 3 / 2] := (optimal_iff forkMat_good ho _).2 ⟨rfl, hlow⟩
    have hd : IsDual (stackSysOf forkMat net).lp [1 / 2, 1 / 2, 3 / 2] [-F₁, -F₂] :=
      (C96_dual ho (setZ_same (by rfl)) (fun i hi => setZ_heightOf (by rfl) hi) _).2 (by
        simpa using fork_held hr h₁ h₂ hs)
    obtain ⟨lin, hlin, e⟩ := goodLinprogSol_exists _ ⟨_, _⟩ ⟨hopt, hd⟩
    obtain ⟨P, hP, hL⟩ := fork_load hlin hn e
    exact ⟨lin, P, hlin, hP, hL⟩
  obtain ⟨l₁, P₁, g₁, e₁, k₁⟩ := key (npPi / 4 * 10) 0 (by positivity) le_rfl (by ring)
  obtain ⟨l₂, P₂, g₂, e₂, k₂⟩ := key 0 (npPi / 4 * 10) le_rfl (by positivity) (by ring)
  refine ⟨l₁, l₂, P₁, P₂, g₁, g₂, e₁, e₂, ?_, ?_⟩
  · rw [k₁, neg_div, div_self (by positivity)]; simp
  · rw [k₂, neg_div, neg_div, div_self (by positivity)]; simp

/-! ### Concrete cases -/

/-- C96: the hypotheses of the theorems on the picture are met by a set of three fibers, with the periodic network. -/
example : ∃ (lin : LinprogSol ℚ) (P : LoadPicture ℚ), GoodLinprogSol lin ∧ GoodMat forkMat ∧ (∀ f ∈ forkMat.fibers, f.w = 0) ∧
    forkMat.fibers ≠ [] ∧ loadPicture lin forkMat true = .ok P ∧ P.load = [-1, 0, 0] := by
  obtain ⟨l, -, P, -, h1, -, h2, -, h3, -⟩ := C96_not_unique
  exact ⟨l, P, h1, forkMat_good, by simp [forkMat], by simp [forkMat], h2, h3⟩

/-- C96: the picture when the weight of the third fiber is shared: loads, colours, contacts. -/
example : (loadPicture (fun _ => some ⟨[1 / 2, 1 / 2, 3 / 2], [-npPi / 4 * 9, -npPi / 4 * 1]⟩) forkMat true).toOption.map
    (fun P => (P.load, P.fibers.map (·.2.2), P.contacts.map (fun r => (r.A, r.B)))) =
    some ([-9 / 10, -1 / 10, 0], [.fin 0, .fin (8 / 9), .fin 1], [(0, 2), (1, 2)]) := by decide +kernel

/-- C96: an empty set of fibers. -/
example : GoodMat ({ fibers := [], attrs := { n := some 0, size := some 20 } } : Mat ℚ) := by
  have h : matCheck ({ fibers := [], attrs := { n := some 0, size := some 20 } } : Mat ℚ).frame = .ok () := by decide +kernel
  exact ((matCheck_frame_iff _).1 h).resolve_left (by simp [Skipped])

end Fibermat
