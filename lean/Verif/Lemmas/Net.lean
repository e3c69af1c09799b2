import Verif.Props.FrameChecks
import Verif.Props.MatInit
import Verif.Spec.Net

/-! Lemmas on `Net.init`. -/

namespace Fibermat
open Spec
set_option linter.unusedSectionVars false
variable {K : Type} [Field K] [LinearOrder K]

/-- `mat_` of `Net.init`. -/
def extFibers (periodic : Bool) (size : K) (fs : List (Fiber K)) : List (Nat × Fiber K) :=
  if periodic then periodicFibers size fs else plainFibers fs

/-- A fiber moved by `(i, j)` boxes. -/
def shiftFiber (size : K) (i j : ℤ) (f : Fiber K) : Fiber K := { f with x := f.x + i * size, y := f.y + j * size }

theorem shiftFiber_zero (size : K) (f : Fiber K) : shiftFiber size 0 0 f = f := by simp [shiftFiber]

theorem mem_plain {fs : List (Fiber K)} {p : Nat × Fiber K} : p ∈ plainFibers fs ↔ fs[p.1]? = some p.2 := by
  unfold plainFibers
  rw [List.mem_map]
  constructor
  · rintro ⟨q, hq, rfl⟩
    exact List.mem_zipIdx_iff_getElem?.1 hq
  · intro h
    exact ⟨(p.2, p.1), List.mem_zipIdx_iff_getElem?.2 h, rfl⟩

/-- The four kinds of copies. -/
theorem mem_periodic {size : K} {fs : List (Fiber K)} {p : Nat × Fiber K} :
    p ∈ periodicFibers size fs ↔ ∃ f, fs[p.1]? = some f ∧
      (p.2 = f ∨
       (f.x < -(size / 2) + maxLength fs ∧ p.2 = { f with x := f.x + size }) ∨
       (f.y < -(size / 2) + maxLength fs ∧ p.2 = { f with y := f.y + size }) ∨
       (f.x > size / 2 - maxLength fs ∧ f.y > size / 2 - maxLength fs ∧
          p.2 = { f with x := f.x - size, y := f.y - size })) := by
  have hb : ∀ q : Nat × Fiber K, q ∈ fs.zipIdx.map (fun p => (p.2, p.1)) ↔ fs[q.1]? = some q.2 := fun q => mem_plain
  unfold periodicFibers
  simp only [List.mem_append, List.mem_map, List.mem_filter, decide_eq_true_eq, hb]
  constructor
  · rintro (((h | ⟨q, ⟨h1, h2⟩, rfl⟩) | ⟨q, ⟨h1, h2⟩, rfl⟩) | ⟨q, ⟨h1, h2⟩, rfl⟩)
    · exact ⟨_, h, Or.inl rfl⟩
    · exact ⟨_, h1, Or.inr (Or.inl ⟨h2, rfl⟩)⟩
    · exact ⟨_, h1, Or.inr (Or.inr (Or.inl ⟨h2, rfl⟩))⟩
    · exact ⟨_, h1, Or.inr (Or.inr (Or.inr ⟨h2.1, h2.2, rfl⟩))⟩
  · obtain ⟨a, g⟩ := p
    rintro ⟨f, hf, h | ⟨h, h'⟩ | ⟨h, h'⟩ | ⟨h, h1, h'⟩⟩
    · simp only at h; subst h
      left; left; left
      exact hf
    · simp only at h'; subst h'
      left; left; right
      exact ⟨(a, f), ⟨hf, h⟩, rfl⟩
    · simp only at h'; subst h'
      left; right
      exact ⟨(a, f), ⟨hf, h⟩, rfl⟩
    · simp only at h'; subst h'
      right
      exact ⟨(a, f), ⟨hf, h, h1⟩, rfl⟩

/-- Every element of `mat_` is a moved fiber of the mat. -/
theorem ext_image {periodic : Bool} {size : K} {fs : List (Fiber K)} {p : Nat × Fiber K}
    (h : p ∈ extFibers periodic size fs) :
    ∃ f i j, fs[p.1]? = some f ∧ p.2 = shiftFiber size i j f ∧ (periodic = false → i = 0 ∧ j = 0) := by
  unfold extFibers at h
  cases periodic with
  | false =>
    exact ⟨p.2, 0, 0, mem_plain.1 h, by rw [shiftFiber_zero], by simp⟩
  | true =>
    obtain ⟨f, hf, h | ⟨-, h⟩ | ⟨-, h⟩ | ⟨-, -, h⟩⟩ := mem_periodic.1 h
    · exact ⟨f, 0, 0, hf, by rw [shiftFiber_zero, h], by simp⟩
    · exact ⟨f, 1, 0, hf, by simp [shiftFiber, h], by simp⟩
    · exact ⟨f, 0, 1, hf, by simp [shiftFiber, h], by simp⟩
    · exact ⟨f, -1, -1, hf, by simp [shiftFiber, h, sub_eq_add_neg], by simp⟩

/-- The fibers of the mat are in `mat_`. -/
theorem ext_base {periodic : Bool} {size : K} {fs : List (Fiber K)} {a : Nat} {f : Fiber K}
    (h : fs[a]? = some f) : (a, f) ∈ extFibers periodic size fs := by
  unfold extFibers
  cases periodic with
  | false => exact mem_plain.2 h
  | true => exact mem_periodic.2 ⟨f, h, Or.inl rfl⟩

theorem mem_triu {α : Type} {l : List α} {p : α × α} (h : p ∈ triu l) : p.1 ∈ l ∧ p.2 ∈ l := by
  induction l with
  | nil => simp [triu] at h
  | cons a t ih =>
    rw [triu, List.mem_append] at h
    rcases h with h | h
    · obtain ⟨b, hb, rfl⟩ := List.mem_map.1 h
      exact ⟨by simp, hb⟩
    · exact ⟨List.mem_cons_of_mem _ (ih h).1, List.mem_cons_of_mem _ (ih h).2⟩

/-- All unordered pairs are there. -/
theorem triu_complete {α : Type} {l : List α} {a b : α} (ha : a ∈ l) (hb : b ∈ l) :
    (a, b) ∈ triu l ∨ (b, a) ∈ triu l := by
  induction l with
  | nil => simp at ha
  | cons c t ih =>
    simp only [triu, List.mem_append, List.mem_map, Prod.mk.injEq, List.mem_cons]
    rcases List.mem_cons.1 ha with rfl | ha'
    · left; left; exact ⟨b, List.mem_cons.1 hb, rfl, rfl⟩
    · rcases List.mem_cons.1 hb with rfl | hb'
      · right; left; exact ⟨a, Or.inr ha', rfl, rfl⟩
      · rcases ih ha' hb' with h | h
        · exact Or.inl (Or.inr h)
        · exact Or.inr (Or.inr h)

/-! ### sort and removal of duplicates -/

instance candTotal : Std.Total (candLe (K := K)) := ⟨fun a b => by unfold candLe; omega⟩
instance candTrans : IsTrans (Cand K) candLe := ⟨fun a b c => by unfold candLe; omega⟩

/-- Strict order of candidates. -/
def candLt (a b : Cand K) : Prop := a.A < b.A ∨ (a.A = b.A ∧ a.B < b.B)

omit [Field K] in
theorem sortDedup_strict (l : List (Cand K)) : (sortDedup l).Pairwise candLt := by
  have h1 : (sortDedup l).Pairwise candLe :=
    (List.pairwise_insertionSort candLe l).sublist (dropDup_sublist _ _)
  have h2 : (sortDedup l).Pairwise (fun a b => (a.A, a.B) ≠ (b.A, b.B)) := by
    have := dropDup_keys_nodup (fun c : Cand K => (c.A, c.B)) (l.insertionSort candLe)
    rw [List.Nodup, List.pairwise_map] at this
    exact this
  refine (h1.and h2).imp ?_
  rintro a b ⟨h, hne⟩
  simp only [ne_eq, Prod.mk.injEq, not_and] at hne
  unfold candLe at h
  unfold candLt
  omega

omit [Field K] in
theorem sortDedup_mem {l : List (Cand K)} {c : Cand K} (h : c ∈ sortDedup l) : c ∈ l := by
  have := (dropDup_sublist _ _).subset h
  rwa [List.mem_insertionSort] at this

omit [Field K] in
theorem sortDedup_key {l : List (Cand K)} {c : Cand K} (h : c ∈ l) :
    ∃ d ∈ sortDedup l, d.A = c.A ∧ d.B = c.B := by
  obtain ⟨d, hd, e⟩ := dropDup_mem_key (fun c : Cand K => (c.A, c.B)) (l.insertionSort candLe) c
    (List.mem_insertionSort candLe |>.2 h)
  simp only [Prod.mk.injEq] at e
  exact ⟨d, hd, e.1, e.2⟩

omit [Field K] in
theorem sortDedup_unique {l : List (Cand K)} {c d : Cand K} (hc : c ∈ sortDedup l) (hd : d ∈ sortDedup l)
    (hA : c.A = d.A) (hB : c.B = d.B) : c = d := by
  have h := sortDedup_strict l
  by_contra hne
  rcases List.mem_iff_getElem.1 hc with ⟨i, hi, rfl⟩
  rcases List.mem_iff_getElem.1 hd with ⟨j, hj, rfl⟩
  rcases Nat.lt_trichotomy i j with hij | hij | hij
  · have := List.pairwise_iff_getElem.1 h i j hi hj hij
    unfold candLt at this; omega
  · subst hij; exact hne rfl
  · have := List.pairwise_iff_getElem.1 h j i hj hi hij
    unfold candLt at this; omega

omit [Field K] in
/-- The result only depends on the set of candidates when the labels determine the candidate. -/
theorem sortDedup_congr {l l' : List (Cand K)} (hmem : ∀ c, c ∈ l ↔ c ∈ l')
    (hkey : ∀ c ∈ l, ∀ d ∈ l, c.A = d.A → c.B = d.B → c = d) : sortDedup l = sortDedup l' := by
  have : Std.Irrefl (candLt (K := K)) := ⟨fun a => by unfold candLt; omega⟩
  have : Std.Antisymm (candLt (K := K)) := ⟨fun a b h1 h2 => by unfold candLt at *; omega⟩
  have hset : ∀ {l : List (Cand K)}, (∀ c ∈ l, ∀ d ∈ l, c.A = d.A → c.B = d.B → c = d) →
      ∀ c, c ∈ sortDedup l ↔ c ∈ l := by
    intro l hk c
    refine ⟨sortDedup_mem, fun hc => ?_⟩
    obtain ⟨d, hd, e1, e2⟩ := sortDedup_key hc
    rwa [hk c hc d (sortDedup_mem hd) e1.symm e2.symm]
  refine List.Pairwise.eq_of_mem_iff (r := candLt) (sortDedup_strict l) (sortDedup_strict l') ?_
  intro c
  rw [hset hkey, hset (fun c hc d hd => hkey c ((hmem c).2 hc) d ((hmem d).2 hd)), hmem]

/-! ### candidates -/

theorem detU_comm (f g : Fiber K) : detU g f = detU f g := by unfold detU; ring

theorem dotU_comm (f g : Fiber K) : dotU g f = dotU f g := by unfold dotU; ring

theorem dotR_swap (e f g : Fiber K) : dotR e g f = - dotR e f g := by unfold dotR; ring

theorem abscissae_swap (f g : Fiber K) (h : detU f g ≠ 0) : abscissae g f = ((abscissae f g).2, (abscissae f g).1) := by
  have h' : detU g f ≠ 0 := by rwa [detU_comm]
  unfold abscissae
  simp only [h, h', ne_eq, not_false_iff, if_true, Prod.mk.injEq]
  rw [detU_comm f g, dotR_swap g f g, dotR_swap f f g]
  constructor
  · rw [← neg_div]; congr 1; ring
  · rw [← neg_div]; congr 1; ring

variable [IsStrictOrderedRing K]

theorem nearby_comm (f g : Fiber K) : nearby g f = nearby f g := by
  unfold nearby
  have h1 : (g.l + f.l) / 2 = (f.l + g.l) / 2 := by ring
  have h2 : (g.x - f.x) ^ 2 + (g.y - f.y) ^ 2 = (f.x - g.x) ^ 2 + (f.y - g.y) ^ 2 := by ring
  rw [h1, h2]

/-- A candidate of two different labels. -/
theorem candidate_ne {a b : Nat} {f g : Fiber K} {c : Cand K} (hab : a < b) (hl : 0 < f.l) :
    candidate ((a, f), (b, g)) = some c ↔
      nearby f g = true ∧ detU f g ≠ 0 ∧ c = ⟨a, b, (abscissae f g).1, (abscissae f g).2⟩ ∧
        |(abscissae f g).1| < f.l / 2 ∧ |(abscissae f g).2| < g.l / 2 := by
  unfold candidate
  simp only
  by_cases hn : nearby f g = true
  · simp only [hn, if_true, true_and]
    by_cases hd : detU f g = 0
    · have : ¬ (|(abscissae f g).1| < f.l / 2) := by
        simp only [abscissae, hd, ne_eq, not_true, if_false]
        rw [abs_of_pos (by linarith)]; exact lt_irrefl _
      simp [this, hab.ne, hd]
    · simp only [hab.ne, or_false, hab.le, if_true, ne_eq, hd, not_false_iff, true_and]
      by_cases hr : |(abscissae f g).1| < f.l / 2 ∧ |(abscissae f g).2| < g.l / 2
      · simp [hr, eq_comm]
      · rw [if_neg hr]
        simp only [reduceCtorEq, false_iff]
        exact fun h => hr h.2
  · simp [hn]

theorem candidate_swap {a b : Nat} {f g : Fiber K} (hab : a ≠ b) (hf : 0 < f.l) (hg : 0 < g.l) :
    candidate ((b, g), (a, f)) = candidate ((a, f), (b, g)) := by
  unfold candidate
  simp only [nearby_comm f g, hab, hab.symm, or_false]
  by_cases hd : detU f g = 0
  · have h1 : ¬ (|(abscissae f g).1| < f.l / 2) := by
      simp only [abscissae, hd, ne_eq, not_true, if_false]
      rw [abs_of_pos (by linarith)]; exact lt_irrefl _
    have h2 : ¬ (|(abscissae g f).1| < g.l / 2) := by
      simp only [abscissae, detU_comm f g, hd, ne_eq, not_true, if_false]
      rw [abs_of_pos (by linarith)]; exact lt_irrefl _
    simp [h1, h2]
  · rw [abscissae_swap f g hd]
    simp only
    by_cases hn : nearby f g = true
    · simp only [hn, if_true]
      by_cases hr : |(abscissae f g).1| < f.l / 2 ∧ |(abscissae f g).2| < g.l / 2
      · rw [if_pos hr, if_pos hr.symm]
        by_cases hle : a ≤ b
        · have : ¬ b ≤ a := by omega
          simp [hle, this]
        · have : b ≤ a := by omega
          simp [hle, this]
      · rw [if_neg hr, if_neg (fun h => hr h.symm)]
    · simp [hn]

/-- A candidate with equal labels: the end points. -/
theorem candidate_eq {a : Nat} {f g : Fiber K} {c : Cand K} (hd : detU f g = 0) :
    candidate ((a, f), (a, g)) = some c ↔ nearby f g = true ∧ c = ⟨a, a, f.l / 2, -(g.l / 2)⟩ := by
  unfold candidate
  by_cases hn : nearby f g = true
  · simp [hn, abscissae, hd, eq_comm]
  · simp [hn]

theorem nearby_self {f : Fiber K} (h : 0 < f.l) : nearby f f = true := by
  have h1 : (0 : K) < (f.l + f.l) / 2 := by linarith
  have h2 : (0 : K) < ((f.l + f.l) / 2) ^ 2 := by positivity
  simp only [nearby, sub_self, ne_eq, OfNat.ofNat_ne_zero, not_false_eq_true, zero_pow, add_zero, Bool.and_eq_true,
    decide_eq_true_eq]
  exact ⟨h1, h2⟩

theorem detU_shift (size : K) (i j i' j' : ℤ) (f : Fiber K) :
    detU (shiftFiber size i j f) (shiftFiber size i' j' f) = 0 := by
  simp only [detU, dotU, shiftFiber]; ring

/-! ### the whole network -/

/-- The sorted candidates of `Net.init` without user pairs. -/
def netCands (periodic : Bool) (size : K) (fs : List (Fiber K)) : List (Cand K) :=
  sortDedup ((triu (extFibers periodic size fs)).filterMap candidate)

theorem netInit_eq {m : Mat K} {S : K} (h : GoodMat m) (hS : m.attrs.size = some S) (periodic : Bool) :
    netInit m periodic none = .ok
      { rows := (netCands periodic S m.fibers).map (netRow m.fibers)
        attrs := { m.attrs with periodic := some periodic } } := by
  have hc := matCheck_frame_iff (m := m) |>.2 (Or.inr h)
  unfold netInit
  rw [hc]
  cases periodic <;> simp [hS, Bind.bind, Except.bind, pure, Except.pure, netCands, extFibers]

/-- Members of the sorted candidates come from a pair of moved fibers. -/
theorem netCands_mem {periodic : Bool} {S : K} {fs : List (Fiber K)} (hl : ∀ f ∈ fs, 0 < f.l) {c : Cand K}
    (h : c ∈ netCands periodic S fs) :
    (∃ a b f g i j i' j', a < b ∧ fs[a]? = some f ∧ fs[b]? = some g ∧
      (periodic = false → i = 0 ∧ j = 0 ∧ i' = 0 ∧ j' = 0) ∧
      candidate ((a, shiftFiber S i j f), (b, shiftFiber S i' j' g)) = some c) ∨
    (∃ a f, fs[a]? = some f ∧ c = ⟨a, a, f.l / 2, -(f.l / 2)⟩) := by
  have h1 := sortDedup_mem h
  rw [List.mem_filterMap] at h1
  obtain ⟨⟨⟨a, f⟩, ⟨b, g⟩⟩, hp, hc⟩ := h1
  obtain ⟨ha, hb⟩ := mem_triu hp
  obtain ⟨f0, i, j, hf0, hfe, hij⟩ := ext_image ha
  obtain ⟨g0, i', j', hg0, hge, hij'⟩ := ext_image hb
  simp only at hf0 hfe hg0 hge
  subst hfe
  subst hge
  have hfl := hl _ (List.mem_of_getElem? hf0)
  have hgl := hl _ (List.mem_of_getElem? hg0)
  rcases Nat.lt_trichotomy a b with hab | hab | hab
  · left
    exact ⟨a, b, f0, g0, i, j, i', j', hab, hf0, hg0, fun h => ⟨(hij h).1, (hij h).2, (hij' h).1, (hij' h).2⟩, hc⟩
  · subst hab
    right
    rw [hf0] at hg0; cases hg0
    rw [candidate_eq (detU_shift S i j i' j' f0)] at hc
    exact ⟨a, f0, hf0, hc.2⟩
  · left
    rw [candidate_swap (by omega) (by exact hgl) (by exact hfl)] at hc
    exact ⟨b, a, g0, f0, i', j', i, j, hab, hg0, hf0, fun h => ⟨(hij' h).1, (hij' h).2, (hij h).1, (hij h).2⟩, hc⟩

/-- A pair of elements of `mat_` with a candidate gives a connection of the same fibers. -/
theorem netCands_complete {periodic : Bool} {S : K} {fs : List (Fiber K)} {p q : Nat × Fiber K}
    (hp : p ∈ extFibers periodic S fs) (hq : q ∈ extFibers periodic S fs) (hpl : 0 < p.2.l) (hql : 0 < q.2.l)
    (hne : p.1 < q.1) {c : Cand K} (hc : candidate (p, q) = some c) :
    ∃ d ∈ netCands periodic S fs, d.A = p.1 ∧ d.B = q.1 := by
  have hcm : c ∈ (triu (extFibers periodic S fs)).filterMap candidate := by
    rw [List.mem_filterMap]
    rcases triu_complete hp hq with h | h
    · exact ⟨_, h, hc⟩
    · refine ⟨_, h, ?_⟩
      obtain ⟨a, f⟩ := p
      obtain ⟨b, g⟩ := q
      rw [candidate_swap (by simp only at hne; omega) hpl hql]; exact hc
  obtain ⟨d, hd, e1, e2⟩ := sortDedup_key hcm
  obtain ⟨a, f⟩ := p
  obtain ⟨b, g⟩ := q
  rw [candidate_ne hne hpl] at hc
  obtain ⟨-, -, rfl, -⟩ := hc
  exact ⟨d, hd, e1, e2⟩

theorem netCands_ends {periodic : Bool} {S : K} {fs : List (Fiber K)} (hl : ∀ f ∈ fs, 0 < f.l) {a : Nat} {f : Fiber K}
    (h : fs[a]? = some f) : ⟨a, a, f.l / 2, -(f.l / 2)⟩ ∈ netCands periodic S fs := by
  have hpos := hl f (List.mem_of_getElem? h)
  have hd : detU f f = 0 := by simp only [detU, dotU]; ring
  have hext : (a, f) ∈ extFibers periodic S fs := ext_base h
  have hcm : (⟨a, a, f.l / 2, -(f.l / 2)⟩ : Cand K) ∈ (triu (extFibers periodic S fs)).filterMap candidate := by
    rw [List.mem_filterMap]
    refine ⟨((a, f), (a, f)), ?_, (candidate_eq hd).2 ⟨nearby_self hpos, rfl⟩⟩
    rcases triu_complete hext hext with h | h <;> exact h
  obtain ⟨d, hdm, e1, e2⟩ := sortDedup_key hcm
  have hdm' : d ∈ netCands periodic S fs := hdm
  rcases netCands_mem hl hdm' with ⟨a', b', f', g', i, j, i', j', hab, hf', hg', -, hc⟩ | ⟨a', f', hf', rfl⟩
  · rw [candidate_ne hab (by exact hl f' (List.mem_of_getElem? hf'))] at hc
    obtain ⟨-, -, rfl, -⟩ := hc
    simp only at e1 e2; omega
  · simp only at e1
    subst e1
    rw [h] at hf'; cases hf'
    exact hdm'

end Fibermat
