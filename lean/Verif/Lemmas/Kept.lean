import Verif.Lemmas.RelabelNet
import Verif.Props.Net

/-! Candidates of two fibers do not depend on the other fibers. -/

set_option linter.unusedSectionVars false
set_option linter.unusedSimpArgs false

namespace Fibermat
variable {K : Type} [Field K] [LinearOrder K] [IsStrictOrderedRing K]
open Spec

/-- Kinds of copies. -/
inductive Copy
  | base | right | up | corner
deriving DecidableEq

/-- Copies are moved by the size of the box. -/
def Copy.move (S : K) : Copy → Fiber K → Fiber K
  | .base, f => f
  | .right, f => { f with x := f.x + S }
  | .up, f => { f with y := f.y + S }
  | .corner, f => { f with x := f.x - S, y := f.y - S }

/-- Which copies are made, for a largest length `l`. -/
def Copy.made (S l : K) : Copy → Fiber K → Bool
  | .base, _ => true
  | .right, f => decide (f.x < -(S / 2) + l)
  | .up, f => decide (f.y < -(S / 2) + l)
  | .corner, f => decide (f.x > S / 2 - l ∧ f.y > S / 2 - l)

/-- All conceivable copies. -/
def allCopies (base : List (ℕ × Fiber K)) : List (Copy × ℕ × Fiber K) :=
  [Copy.base, .right, .up, .corner].flatMap (fun s => base.map (fun p => (s, p)))

/-- A copy in its place. -/
def placed (S : K) (t : Copy × ℕ × Fiber K) : ℕ × Fiber K := (t.2.1, t.1.move S t.2.2)

theorem extOf_copies (S l : K) (base : List (ℕ × Fiber K)) :
    extOf true S l base = ((allCopies base).filter (fun t => t.1.made S l t.2.2)).map (placed S) := by
  unfold extOf allCopies
  simp only [if_true, List.flatMap_cons, List.flatMap_nil, List.append_nil, List.filter_append, List.filter_map, List.map_append,
    List.map_map, List.append_assoc]
  congr 1
  · have : (base.filter ((fun t : Copy × ℕ × Fiber K => t.1.made S l t.2.2) ∘ fun p => (Copy.base, p))) = base := by
      rw [List.filter_eq_self]; intro a _; rfl
    rw [this]
    symm
    exact (List.map_congr_left (fun p _ => rfl)).trans (List.map_id _)

theorem placed_same {S : K} (s : Copy) {a b : ℕ} {f g : Fiber K} :
    candidate (placed S (s, a, f), placed S (s, b, g)) = candidate ((a, f), (b, g)) := by
  have h1 : nearby (s.move S f) (s.move S g) = nearby f g := by
    cases s <;> first | rfl | simp [nearby, Copy.move]
  have hd : ∀ e : Fiber K, dotR (s.move S e) (s.move S f) (s.move S g) = dotR e f g := by
    intro e
    cases s <;> simp only [dotR, Copy.move] <;> ring
  have hl : (s.move S f).l = f.l ∧ (s.move S g).l = g.l := by cases s <;> exact ⟨rfl, rfl⟩
  have hu : ∀ e e' : Fiber K, dotU (s.move S e) (s.move S e') = dotU e e' := by intro e e'; cases s <;> rfl
  have h2 : abscissae (s.move S f) (s.move S g) = abscissae f g := by
    have hdet : detU (s.move S f) (s.move S g) = detU f g := by simp only [detU, hu]
    unfold abscissae
    simp only
    by_cases hz : detU f g ≠ 0
    · rw [if_pos (by rwa [hdet]), if_pos hz, hdet, hu, hu, hu, hu, hd, hd]
    · rw [if_neg (by rwa [hdet]), if_neg hz, hl.1, hl.2]
  unfold candidate
  simp only [placed, h1, h2, hl.1, hl.2]

theorem nearby_bounds {f g : Fiber K} (h : nearby f g = true) : |f.x - g.x| < (f.l + g.l) / 2 ∧ |f.y - g.y| < (f.l + g.l) / 2 := by
  simp only [nearby, Bool.and_eq_true, decide_eq_true_eq] at h
  obtain ⟨h0, h1⟩ := h
  constructor
  · refine abs_lt_of_sq_lt_sq ?_ h0.le
    nlinarith [sq_nonneg (f.y - g.y)]
  · refine abs_lt_of_sq_lt_sq ?_ h0.le
    nlinarith [sq_nonneg (f.x - g.x)]

/-- Copies at different places that are near each other are made. -/
theorem made_of_nearby {S l : K} {s t : Copy} (hst : s ≠ t) {f g : Fiber K} (hf : GoodFiber S f) (hg : GoodFiber S g) (hfl : f.l ≤ l)
    (hgl : g.l ≤ l) (h : nearby (s.move S f) (t.move S g) = true) : s.made S l f = true ∧ t.made S l g = true := by
  obtain ⟨h1, h2⟩ := nearby_bounds h
  rw [abs_lt] at h1 h2
  have fx1 := hf.x1
  have fx2 := hf.x2
  have fy1 := hf.y1
  have fy2 := hf.y2
  have gx1 := hg.x1
  have gx2 := hg.x2
  have gy1 := hg.y1
  have gy2 := hg.y2
  have e : ∀ (s : Copy) (f : Fiber K), (s.move S f).l = f.l := by intro s f; cases s <;> rfl
  rw [e, e] at h1 h2
  cases s <;> cases t <;> first | exact absurd rfl hst | skip
  all_goals
    simp only [Copy.move, Copy.made, decide_eq_true_eq, true_and, and_true, gt_iff_lt] at h1 h2 ⊢
    try refine ⟨?_, ?_⟩
    all_goals try constructor
    all_goals linarith

/-- Candidates of two labels. -/
def labelCands (a b : ℕ) (l : List ((ℕ × Fiber K) × (ℕ × Fiber K))) : List (Cand K) :=
  (l.filterMap candidate).filter (fun c => decide (candKey c = (a, b)))

/-- Candidates of two fibers when no copy is left out. -/
def freeCands (S : K) (a b : ℕ) (base : List (ℕ × Fiber K)) : List (Cand K) :=
  labelCands a b ((triu (allCopies base)).map (fun q => (placed S q.1, placed S q.2)))

theorem labelCands_extOf (S l : K) (a b : ℕ) (base : List (ℕ × Fiber K)) :
    labelCands a b (triu (extOf true S l base)) = labelCands a b (((triu (allCopies base)).filter
      (fun q => q.1.1.made S l q.1.2.2 && q.2.1.made S l q.2.2.2)).map (fun q => (placed S q.1, placed S q.2))) := by
  rw [extOf_copies, triu_map, triu_filter (fun t : Copy × ℕ × Fiber K => t.1.made S l t.2.2)]

/-- The candidate kept for two fibers does not depend on the largest length. -/
theorem head_two {S l : K} {a b : ℕ} {f g : Fiber K} (hab : a < b) (hf : GoodFiber S f) (hg : GoodFiber S g) (hfl : f.l ≤ l)
    (hgl : g.l ≤ l) : (labelCands a b (triu (extOf true S l [(a, f), (b, g)]))).head? = (freeCands S a b [(a, f), (b, g)]).head? := by
  cases hc : candidate ((a, f), (b, g)) with
  | some c =>
    have hk : candKey c = (a, b) := by
      rcases candidate_key_labels hc with ⟨e1, e2, -⟩ | ⟨-, -, h⟩
      · rw [candKey, e1, e2]
      · simp only at h; omega
    have key : ∀ t : List (ℕ × Fiber K), (labelCands a b (triu ((a, f) :: (b, g) :: t))).head? = some c := by
      intro t
      have h0 : labelCands a b [((a, f), (a, f))] = [] := by
        unfold labelCands
        rw [List.filter_eq_nil_iff]
        intro c' hc'
        obtain ⟨p, hp, hpc⟩ := List.mem_filterMap.1 hc'
        rw [List.mem_singleton] at hp
        subst hp
        rcases candidate_key_labels hpc with ⟨e1, e2, -⟩ | ⟨e1, e2, -⟩
        all_goals
          simp only [candKey, e1, e2, Prod.mk.injEq, true_and, decide_eq_true_eq]
          omega
      have e : triu ((a, f) :: (b, g) :: t) = [((a, f), (a, f))] ++ (((a, f), (b, g)) ::
          (t.map (fun q => ((a, f), q)) ++ triu ((b, g) :: t))) := by
        rw [triu]; simp
      have app : ∀ l1 l2 : List ((ℕ × Fiber K) × (ℕ × Fiber K)), labelCands a b (l1 ++ l2) = labelCands a b l1 ++ labelCands a b l2 := by
        intro l1 l2; unfold labelCands; rw [List.filterMap_append, List.filter_append]
      rw [e, app, h0, List.nil_append]
      unfold labelCands
      rw [List.filterMap_cons, hc]
      simp [hk]
    have e1 : ∃ t, extOf true S l [(a, f), (b, g)] = (a, f) :: (b, g) :: t := ⟨_, by simp only [extOf, if_true]; rfl⟩
    have e2 : ∃ t, (allCopies [(a, f), (b, g)]).map (placed S) = (a, f) :: (b, g) :: t := ⟨_, by
      simp only [allCopies, List.flatMap_cons, List.map_append, List.map_cons, List.cons_append]; rfl⟩
    obtain ⟨t1, e1⟩ := e1
    obtain ⟨t2, e2⟩ := e2
    rw [e1, key, freeCands, ← triu_map, e2, key]
  | none =>
    congr 1
    rw [labelCands_extOf]
    unfold freeCands labelCands
    rw [List.filterMap_map, List.filterMap_map]
    refine filterMap_filter_of _ ?_
    rintro ⟨⟨s, i, p⟩, ⟨t, j, q⟩⟩ hpq c hcc hk
    obtain ⟨h1, h2⟩ := mem_triu hpq
    have mem : ∀ x : Copy × ℕ × Fiber K, x ∈ allCopies [(a, f), (b, g)] → x.2 = (a, f) ∨ x.2 = (b, g) := by
      intro x hx
      obtain ⟨s, -, hx⟩ := List.mem_flatMap.1 hx
      obtain ⟨p, hp, rfl⟩ := List.mem_map.1 hx
      simpa using hp
    have m1 := mem _ h1
    have m2 := mem _ h2
    simp only [Prod.mk.injEq, decide_eq_true_eq, candKey, Function.comp] at m1 m2 hk hcc ⊢
    have hne : i ≠ j := by
      intro e
      rcases candidate_key_labels hcc with ⟨e1, e2, -⟩ | ⟨e1, e2, -⟩ <;> simp only [placed] at e1 e2 <;> omega
    by_cases hst : s = t
    · subst hst
      exfalso
      rw [placed_same] at hcc
      rcases m1 with ⟨rfl, rfl⟩ | ⟨rfl, rfl⟩ <;> rcases m2 with ⟨rfl, rfl⟩ | ⟨rfl, rfl⟩
      · exact hne rfl
      · rw [hc] at hcc; cases hcc
      · rw [candidate_swap hab.ne hf.l hg.l, hc] at hcc; cases hcc
      · exact hne rfl
    · have hn : nearby (s.move S p) (t.move S q) = true := by
        by_contra h
        unfold candidate at hcc
        simp only [placed, h, if_false] at hcc
        cases hcc
      have gp : GoodFiber S p ∧ p.l ≤ l := by
        rcases m1 with ⟨rfl, rfl⟩ | ⟨rfl, rfl⟩
        · exact ⟨hf, hfl⟩
        · exact ⟨hg, hgl⟩
      have gq : GoodFiber S q ∧ q.l ≤ l := by
        rcases m2 with ⟨rfl, rfl⟩ | ⟨rfl, rfl⟩
        · exact ⟨hf, hfl⟩
        · exact ⟨hg, hgl⟩
      obtain ⟨x1, x2⟩ := made_of_nearby hst gp.1 gq.1 gp.2 gq.2 hn
      simp only [x1, x2, Bool.and_self]

/-- The candidate kept for a fiber with itself. -/
theorem head_one {S l : K} {a : ℕ} {f : Fiber K} (hf : GoodFiber S f) (periodic : Bool) :
    (labelCands a a (triu (extOf periodic S l [(a, f)]))).head? = some ⟨a, a, f.l / 2, -(f.l / 2)⟩ := by
  have hc : candidate ((a, f), (a, f)) = some ⟨a, a, f.l / 2, -(f.l / 2)⟩ :=
    (candidate_eq (by simp [detU])).2 ⟨nearby_self hf.l, rfl⟩
  obtain ⟨t, e⟩ : ∃ t, extOf periodic S l [(a, f)] = (a, f) :: t := by
    cases periodic
    · exact ⟨[], by simp [extOf]⟩
    · exact ⟨_, by simp only [extOf, if_true]; rfl⟩
  rw [e, triu]
  unfold labelCands
  simp [hc, candKey]

/-- The candidate kept for two fibers of two mats. -/
theorem head_kept {fs gs : List (Fiber K)} {S : K} (hgs : ∀ f ∈ gs, GoodFiber S f) (periodic : Bool)
    {φ : ℕ → ℕ} {a b : ℕ} {f g : Fiber K} (hab : a ≤ b) (ho : a < b → φ a < φ b) (hfa : gs[a]? = some f) (hgb : gs[b]? = some g)
    (hfa' : fs[φ a]? = some f) (hgb' : fs[φ b]? = some g) :
    (labelCands (φ a) (φ b) (triu (extFibers periodic S fs))).head? =
      ((labelCands a b (triu (extFibers periodic S gs))).head?).map (relabelCand φ) := by
  have hf := hgs f (List.mem_of_getElem? hfa)
  have hg := hgs g (List.mem_of_getElem? hgb)
  unfold labelCands
  rw [cands_of_labels, cands_of_labels]
  rcases Nat.lt_or_eq_of_le hab with hlt | rfl
  · rw [plain_filter_two hlt hfa hgb, plain_filter_two (ho hlt) hfa' hgb']
    -- other numbers of the same two fibers
    have hrel : ∀ l, labelCands (φ a) (φ b) (triu (extOf periodic S l [(φ a, f), (φ b, g)])) =
        (labelCands a b (triu (extOf periodic S l [(a, f), (b, g)]))).map (relabelCand φ) := by
      intro l
      have e0 : [(φ a, f), (φ b, g)] = [(a, f), (b, g)].map (relabel φ) := rfl
      rw [e0, extOf_map, triu_map]
      unfold labelCands
      rw [List.filterMap_map]
      have hlab : ∀ p ∈ triu (extOf periodic S l [(a, f), (b, g)]), (p.1.1 = a ∨ p.1.1 = b) ∧ (p.2.1 = a ∨ p.2.1 = b) := by
        intro p hp
        obtain ⟨h1, h2⟩ := mem_triu hp
        have e := extOf_filter periodic S l [(a, f), (b, g)] (fun i => decide (i = a ∨ i = b))
        have e2 : ([(a, f), (b, g)] : List (ℕ × Fiber K)).filter (fun q => decide (q.1 = a ∨ q.1 = b)) = [(a, f), (b, g)] := by simp
        rw [e2] at e
        rw [← e] at h1 h2
        have h1 := (List.mem_filter.1 h1).2
        have h2 := (List.mem_filter.1 h2).2
        rw [decide_eq_true_eq] at h1 h2
        exact ⟨h1, h2⟩
      generalize triu (extOf periodic S l [(a, f), (b, g)]) = T at hlab
      have hφ := ho hlt
      have e : T.filterMap (candidate ∘ fun p : (ℕ × Fiber K) × (ℕ × Fiber K) => (relabel φ p.1, relabel φ p.2)) =
          T.filterMap (fun p : (ℕ × Fiber K) × (ℕ × Fiber K) => (candidate p).map (relabelCand φ)) := by
        refine List.filterMap_congr ?_
        intro p hp
        obtain ⟨h1, h2⟩ := hlab p hp
        refine candidate_relabel ?_ ?_
        · rcases h1 with h1 | h1 <;> rcases h2 with h2 | h2 <;> rw [h1, h2] <;> omega
        · rcases h1 with h1 | h1 <;> rcases h2 with h2 | h2 <;> rw [h1, h2] <;> omega
      rw [e, ← List.map_filterMap, List.filter_map]
      congr 1
      refine List.filter_congr ?_
      intro c hc
      obtain ⟨p, hp, hpc⟩ := List.mem_filterMap.1 hc
      obtain ⟨h1, h2⟩ := hlab p hp
      have hcl : (c.A = a ∨ c.A = b) ∧ (c.B = a ∨ c.B = b) := by
        rcases candidate_key_labels hpc with ⟨e1, e2, -⟩ | ⟨e1, e2, -⟩ <;> rw [e1, e2]
        · exact ⟨h1, h2⟩
        · exact ⟨h2, h1⟩
      simp only [Function.comp, candKey, relabelCand, Prod.mk.injEq, decide_eq_decide]
      obtain ⟨g1, g2⟩ := hcl
      rcases g1 with e1 | e1 <;> rcases g2 with e2 | e2 <;> rw [e1, e2] <;> omega
    have hr := hrel (maxLength fs)
    unfold labelCands at hr
    rw [hr, List.head?_map]
    congr 1
    cases periodic with
    | false => rfl
    | true =>
      have h1 := head_two hlt hf hg (le_maxLength (List.mem_of_getElem? hfa')) (le_maxLength (List.mem_of_getElem? hgb'))
      have h2 := head_two hlt hf hg (le_maxLength (List.mem_of_getElem? hfa)) (le_maxLength (List.mem_of_getElem? hgb))
      rw [← h2] at h1
      exact h1
  · rw [hfa] at hgb
    cases hgb
    rw [plain_filter_one hfa, plain_filter_one hfa']
    have h1 := head_one (a := a) (l := maxLength gs) hf periodic
    have h2 := head_one (a := φ a) (l := maxLength fs) hf periodic
    unfold labelCands at h1 h2
    rw [h1, h2]; rfl

end Fibermat
