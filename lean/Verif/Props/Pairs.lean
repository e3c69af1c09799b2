import Verif.Props.Crossing

/-! # C103: pairs of fibers given by the user, in an open or periodic box -/

set_option linter.unusedSectionVars false

namespace Fibermat
open Spec
variable {K : Type} [Field K] [LinearOrder K] [IsStrictOrderedRing K]

/-- Positions in a list of `n` elements, from the start or from the end. -/
def Spec.PairsBelow (n : ℕ) (ps : List (Int × Int)) : Prop :=
  ∀ p ∈ ps, -(n : Int) ≤ p.1 ∧ p.1 < n ∧ -(n : Int) ≤ p.2 ∧ p.2 < n

/-- Planar fibers no longer than half the box (only needed in a periodic box). -/
def Spec.ShortIfPeriodic (periodic : Bool) (S : K) (m : Mat K) : Prop :=
  periodic = true → ∀ f ∈ m.fibers, Planar f ∧ f.l ≤ S / 2

/-- What a pair of `mat_` can give. -/
theorem pair_form {periodic : Bool} {S : K} {fs : List (Fiber K)} (hl : ∀ f ∈ fs, 0 < f.l) {x y : Nat × Fiber K}
    (hx : x ∈ extFibers periodic S fs) (hy : y ∈ extFibers periodic S fs) {c : Cand K} (hc : candidate (x, y) = some c) :
    (∃ a b f g i j i' j', a < b ∧ fs[a]? = some f ∧ fs[b]? = some g ∧
      (periodic = false → i = 0 ∧ j = 0 ∧ i' = 0 ∧ j' = 0) ∧
      candidate ((a, shiftFiber S i j f), (b, shiftFiber S i' j' g)) = some c) ∨
    (∃ a f, fs[a]? = some f ∧ c = ⟨a, a, f.l / 2, -(f.l / 2)⟩) := by
  obtain ⟨a, f⟩ := x
  obtain ⟨b, g⟩ := y
  obtain ⟨f0, i, j, hf0, hfe, hij⟩ := ext_image hx
  obtain ⟨g0, i', j', hg0, hge, hij'⟩ := ext_image hy
  simp only at hf0 hfe hg0 hge
  subst hfe
  subst hge
  have hfl := hl _ (List.mem_of_getElem? hf0)
  have hgl := hl _ (List.mem_of_getElem? hg0)
  rcases Nat.lt_trichotomy a b with hab | hab | hab
  · left
    exact ⟨a, b, f0, g0, i, j, i', j', hab, hf0, hg0, fun h => ⟨(hij h).1, (hij h).2, (hij' h).1, (hij' h).2⟩, hc⟩
  · subst hab
    right
    rw [hf0] at hg0; cases hg0
    rw [candidate_eq (detU_shift S i j i' j' f0)] at hc
    exact ⟨a, f0, hf0, hc.2⟩
  · left
    rw [candidate_swap (by omega) (by exact hgl) (by exact hfl)] at hc
    exact ⟨b, a, g0, f0, i', j', i, j, hab, hg0, hf0, fun h => ⟨(hij' h).1, (hij' h).2, (hij h).1, (hij h).2⟩, hc⟩

/-- A pair taken the other way gives the same. -/
theorem pair_swap {periodic : Bool} {S : K} {fs : List (Fiber K)} (hl : ∀ f ∈ fs, 0 < f.l) {x y : Nat × Fiber K}
    (hx : x ∈ extFibers periodic S fs) (hy : y ∈ extFibers periodic S fs) : candidate (y, x) = candidate (x, y) := by
  obtain ⟨a, f⟩ := x
  obtain ⟨b, g⟩ := y
  obtain ⟨f0, i, j, hf0, hfe, -⟩ := ext_image hx
  obtain ⟨g0, i', j', hg0, hge, -⟩ := ext_image hy
  simp only at hf0 hfe hg0 hge
  subst hfe
  subst hge
  by_cases hab : a = b
  · subst hab
    rw [hf0] at hg0; cases hg0
    ext c
    rw [candidate_eq (detU_shift S i j i' j' f0), candidate_eq (detU_shift S i' j' i j f0), nearby_comm]
    rfl
  · have hfl := hl _ (List.mem_of_getElem? hf0)
    have hgl := hl _ (List.mem_of_getElem? hg0)
    exact candidate_swap hab (by exact hfl) (by exact hgl)

/-- The labels determine the connection. -/
theorem pair_key {m : Mat K} (h : GoodMat m) {S : K} {periodic : Bool} (hshort : ShortIfPeriodic periodic S m) {x y x' y' : Nat × Fiber K}
    (hx : x ∈ extFibers periodic S m.fibers) (hy : y ∈ extFibers periodic S m.fibers) (hx' : x' ∈ extFibers periodic S m.fibers)
    (hy' : y' ∈ extFibers periodic S m.fibers) {c d : Cand K} (hc : candidate (x, y) = some c) (hd : candidate (x', y') = some d)
    (hA : c.A = d.A) (hB : c.B = d.B) : c = d := by
  have hl := goodMat_pos h
  rcases pair_form hl hx hy hc with ⟨a, b, f, g, i, j, i', j', hab, hf, hg, hper, h1⟩ | ⟨a, f, hf, rfl⟩
  · rcases pair_form hl hx' hy' hd with ⟨a2, b2, f2, g2, k, l, k', l', hab2, hf2, hg2, hper2, h2⟩ | ⟨a2, f2, hf2, rfl⟩
    · have l1 := hl f (List.mem_of_getElem? hf)
      have l2 := hl f2 (List.mem_of_getElem? hf2)
      have c1 := (candidate_ne hab (by exact l1)).1 h1
      have c2 := (candidate_ne hab2 (by exact l2)).1 h2
      have ea : a = a2 := by
        have e1 := congrArg Cand.A c1.2.2.1
        have e2 := congrArg Cand.A c2.2.2.1
        simp only at e1 e2
        omega
      have eb : b = b2 := by
        have e1 := congrArg Cand.B c1.2.2.1
        have e2 := congrArg Cand.B c2.2.2.1
        simp only at e1 e2
        omega
      subst ea
      subst eb
      rw [hf] at hf2; cases hf2
      rw [hg] at hg2; cases hg2
      cases periodic with
      | false =>
        obtain ⟨rfl, rfl, rfl, rfl⟩ := hper rfl
        obtain ⟨rfl, rfl, rfl, rfl⟩ := hper2 rfl
        rw [h1] at h2
        exact Option.some.inj h2
      | true =>
        obtain ⟨pf, lf⟩ := hshort rfl f (List.mem_of_getElem? hf)
        obtain ⟨pg, lg⟩ := hshort rfl g (List.mem_of_getElem? hg)
        have cross : ∀ {i j i' j' : ℤ} {c : Cand K},
            (nearby (shiftFiber S i j f) (shiftFiber S i' j' g) = true ∧ detU (shiftFiber S i j f) (shiftFiber S i' j' g) ≠ 0 ∧
              c = ⟨a, b, (abscissae (shiftFiber S i j f) (shiftFiber S i' j' g)).1, (abscissae (shiftFiber S i j f) (shiftFiber S i' j' g)).2⟩ ∧
              |(abscissae (shiftFiber S i j f) (shiftFiber S i' j' g)).1| < (shiftFiber S i j f).l / 2 ∧
              |(abscissae (shiftFiber S i j f) (shiftFiber S i' j' g)).2| < (shiftFiber S i' j' g).l / 2) →
            NotParallel f g ∧ CrossAt S (i' - i) (j' - j) f g c.sA c.sB := by
          rintro i j i' j' c ⟨-, hd, rfl, k1, k2⟩
          have hwf : (shiftFiber S i j f).w = 0 := pf.1
          have hwg : (shiftFiber S i' j' g).w = 0 := pg.1
          have hnp := (detU_planar hwf hwg).1 hd
          obtain ⟨e1, e2⟩ := (planar_cross hwf hwg hnp _ _).2 (Prod.mk.eta.symm)
          refine ⟨hnp, k1, k2, ?_, ?_⟩
          · simp only [shiftFiber] at e1 ⊢
            push_cast
            linear_combination e1
          · simp only [shiftFiber] at e2 ⊢
            push_cast
            linear_combination e2
        obtain ⟨hnp, x1⟩ := cross c1
        obtain ⟨-, x2⟩ := cross c2
        obtain ⟨-, -, e1, e2⟩ := C79_unique pf pg (by linarith) hnp x1 x2
        obtain ⟨cA, cB, csA, csB⟩ := c
        obtain ⟨dA, dB, dsA, dsB⟩ := d
        simp only at hA hB e1 e2
        rw [hA, hB, e1, e2]
    · have c1 := ((candidate_ne hab (by exact hl f (List.mem_of_getElem? hf))).1 h1).2.2.1
      have e1 := congrArg Cand.A c1
      have e2 := congrArg Cand.B c1
      simp only at e1 e2 hA hB
      omega
  · rcases pair_form hl hx' hy' hd with ⟨a2, b2, f2, g2, k, l, k', l', hab2, hf2, hg2, hper2, h2⟩ | ⟨a2, f2, hf2, rfl⟩
    · have c1 := ((candidate_ne hab2 (by exact hl f2 (List.mem_of_getElem? hf2))).1 h2).2.2.1
      have e1 := congrArg Cand.A c1
      have e2 := congrArg Cand.B c1
      simp only at e1 e2 hA hB
      omega
    · simp only at hA
      subst hA
      rw [hf] at hf2; cases hf2
      rfl

section
variable {m : Mat K} (h : GoodMat m) {S : K} (hS : m.attrs.size = some S) {periodic : Bool}
include h hS

theorem netInit_user {ps : List (Int × Int)} {r : List ((Nat × Fiber K) × (Nat × Fiber K))}
    (e : userPairs (extFibers periodic S m.fibers) ps = .ok r) :
    netInit m periodic (some ps) = .ok { rows := (sortDedup (r.filterMap candidate)).map (netRow m.fibers)
                                         attrs := { m.attrs with periodic := some periodic } } := by
  have hc := matCheck_frame_iff (m := m) |>.2 (Or.inr h)
  unfold netInit
  rw [hc]
  unfold extFibers at e
  cases periodic
  · simp only [Bool.false_eq_true, if_false] at e
    simp [e, Bind.bind, Except.bind, pure, Except.pure]
  · simp only [if_true] at e
    simp [hS, e, Bind.bind, Except.bind, pure, Except.pure]

theorem user_mem {ps : List (Int × Int)} {r : List ((Nat × Fiber K) × (Nat × Fiber K))}
    (hm : ∀ q, q ∈ r ↔ ∃ p ∈ ps, npGet (extFibers periodic S m.fibers) p.1 = .ok q.1 ∧ npGet (extFibers periodic S m.fibers) p.2 = .ok q.2)
    (c : Cand K) : c ∈ r.filterMap candidate ↔ ∃ i j x y, ((i, j) ∈ ps ∨ (j, i) ∈ ps) ∧
        npGet (extFibers periodic S m.fibers) i = .ok x ∧ npGet (extFibers periodic S m.fibers) j = .ok y ∧ candidate (x, y) = some c := by
  rw [List.mem_filterMap]
  constructor
  · rintro ⟨⟨x, y⟩, hq, hc⟩
    obtain ⟨⟨i, j⟩, hp, hx, hy⟩ := (hm _).1 hq
    exact ⟨i, j, x, y, Or.inl hp, hx, hy, hc⟩
  · rintro ⟨i, j, x, y, hp | hp, hx, hy, hc⟩
    · exact ⟨(x, y), (hm _).2 ⟨(i, j), hp, hx, hy⟩, hc⟩
    · refine ⟨(y, x), (hm _).2 ⟨(j, i), hp, hy, hx⟩, ?_⟩
      rw [pair_swap (goodMat_pos h) (npGet_mem hx) (npGet_mem hy)]; exact hc

theorem user_valid {r : List ((Nat × Fiber K) × (Nat × Fiber K))} (hr : ∀ q ∈ r, q.1 ∈ extFibers periodic S m.fibers ∧ q.2 ∈ extFibers periodic S m.fibers) :
    ValidNet (Net.frame ⟨(sortDedup (r.filterMap candidate)).map (netRow m.fibers), { m.attrs with periodic := some periodic }⟩) := by
  refine cands_valid h periodic (sortDedup_strict _) ?_
  intro c hc
  obtain ⟨⟨x, y⟩, hq, hcand⟩ := List.mem_filterMap.1 (sortDedup_mem hc)
  obtain ⟨hx, hy⟩ := hr _ hq
  rcases pair_form (goodMat_pos h) hx hy hcand with ⟨a, b, f, g, i, j, i', j', hab, hf, hg, -, h1⟩ | ⟨a, f, hf, rfl⟩
  · obtain ⟨-, -, rfl, -⟩ := (candidate_ne hab (by exact goodMat_pos h f (List.mem_of_getElem? hf))).1 h1
    exact ⟨hab.le, (List.getElem?_eq_some_iff.1 hg).1⟩
  · exact ⟨le_refl _, (List.getElem?_eq_some_iff.1 hf).1⟩

theorem netNew_user {ps : List (Int × Int)} (hps : PairsBelow (extFibers periodic S m.fibers).length ps) :
    ∃ r : List ((Nat × Fiber K) × (Nat × Fiber K)), (∀ q, q ∈ r ↔ ∃ p ∈ ps, npGet (extFibers periodic S m.fibers) p.1 = .ok q.1 ∧ npGet (extFibers periodic S m.fibers) p.2 = .ok q.2) ∧
      netNew m periodic (some ps) = .ok { rows := (sortDedup (r.filterMap candidate)).map (netRow m.fibers)
                                          attrs := { m.attrs with periodic := some periodic } } ∧
      ValidNet (Net.frame ⟨(sortDedup (r.filterMap candidate)).map (netRow m.fibers), { m.attrs with periodic := some periodic }⟩) := by
  obtain ⟨r, e, hm⟩ := userPairs_ok hps
  have hv := user_valid h hS (periodic := periodic) (r := r) (fun q hq => by
    obtain ⟨p, -, h1, h2⟩ := (hm q).1 hq
    exact ⟨npGet_mem h1, npGet_mem h2⟩)
  have hck := (C14_netCheck_iff _).2 (Or.inr hv)
  refine ⟨r, hm, ?_, hv⟩
  unfold netNew
  rw [netInit_user h hS e]
  simp only [Bind.bind, Except.bind, hck]
  rfl

/-- C103: pairs in range do not make `Net` raise and give a valid net; for short fibers only the set of unordered pairs matters. -/
theorem C103_pairs (hshort : ShortIfPeriodic periodic S m) {ps ps' : List (Int × Int)}
    (hr : PairsBelow (extFibers periodic S m.fibers).length ps) (hr' : PairsBelow (extFibers periodic S m.fibers).length ps')
    (hsame : SamePairs ps ps') :
    ∃ net, netNew m periodic (some ps) = .ok net ∧ netNew m periodic (some ps') = .ok net ∧ ValidNet net.frame := by
  obtain ⟨r, hm, e, hv⟩ := netNew_user h hS hr
  obtain ⟨r', hm', e', -⟩ := netNew_user h hS hr'
  refine ⟨_, e, ?_, hv⟩
  rw [e']
  have : sortDedup (r.filterMap candidate) = sortDedup (r'.filterMap candidate) := by
    apply sortDedup_congr
    · intro c
      rw [user_mem h hS hm, user_mem h hS hm']
      constructor
      · rintro ⟨i, j, x, y, hp, hrest⟩; exact ⟨i, j, x, y, (hsame i j).1 hp, hrest⟩
      · rintro ⟨i, j, x, y, hp, hrest⟩; exact ⟨i, j, x, y, (hsame i j).2 hp, hrest⟩
    · intro c hc d hd hA hB
      obtain ⟨i, j, x, y, -, hx, hy, h1⟩ := (user_mem h hS hm c).1 hc
      obtain ⟨i', j', x', y', -, hx', hy', h2⟩ := (user_mem h hS hm d).1 hd
      exact pair_key h hshort (npGet_mem hx) (npGet_mem hy) (npGet_mem hx') (npGet_mem hy') h1 h2 hA hB
  rw [this]

/-- C103: for short fibers a connection found from given pairs is a connection of the net without pairs. -/
theorem C103_sub (hshort : ShortIfPeriodic periodic S m) {ps : List (Int × Int)}
    (hr : PairsBelow (extFibers periodic S m.fibers).length ps) {net net' : Net K} (hn : netNew m periodic (some ps) = .ok net)
    (hn' : netNew m periodic = .ok net') : ∀ r ∈ net.rows, r ∈ net'.rows := by
  obtain ⟨r, hm, e, -⟩ := netNew_user h hS hr
  rw [hn] at e
  cases e
  rw [netNew_eq h hS] at hn'
  cases hn'
  intro row hrow
  obtain ⟨c, hc, rfl⟩ := List.mem_map.1 hrow
  refine List.mem_map_of_mem ?_
  obtain ⟨i, j, x, y, -, hx, hy, h1⟩ := (user_mem h hS hm c).1 (sortDedup_mem hc)
  have hx := npGet_mem hx
  have hy := npGet_mem hy
  have hcm : c ∈ (triu (extFibers periodic S m.fibers)).filterMap candidate := by
    rw [List.mem_filterMap]
    rcases triu_complete hx hy with ht | ht
    · exact ⟨_, ht, h1⟩
    · exact ⟨_, ht, by rw [pair_swap (goodMat_pos h) hx hy]; exact h1⟩
  obtain ⟨d, hd, e1, e2⟩ := sortDedup_key hcm
  obtain ⟨⟨x', y'⟩, hq, h2⟩ := List.mem_filterMap.1 (sortDedup_mem hd)
  obtain ⟨hx', hy'⟩ := mem_triu hq
  rw [pair_key h hshort hx hy hx' hy' h1 h2 e1.symm e2.symm]
  exact hd

theorem npGet_nat {α : Type} {l : List α} {k : ℕ} {a : α} (hk : l[k]? = some a) : npGet l (k : Int) = .ok a := by
  have : k < l.length := (List.getElem?_eq_some_iff.1 hk).1
  have h1 : ¬ ((k : Int) < 0) := by omega
  have h2 : -(l.length : Int) ≤ (k : Int) := by omega
  simp [npGet, h1, hk, h2]

/-- C103: for short fibers, giving all pairs is the same as giving none. -/
theorem C103_all (hshort : ShortIfPeriodic periodic S m) {ps : List (Int × Int)}
    (hr : PairsBelow (extFibers periodic S m.fibers).length ps)
    (hall : ∀ i j : ℕ, i ≤ j → j < (extFibers periodic S m.fibers).length → ((i : Int), (j : Int)) ∈ ps ∨ ((j : Int), (i : Int)) ∈ ps) :
    netNew m periodic (some ps) = netNew m periodic := by
  obtain ⟨r, hm, e, -⟩ := netNew_user h hS hr
  rw [e, netNew_eq h hS]
  have : sortDedup (r.filterMap candidate) = netCands periodic S m.fibers := by
    apply sortDedup_congr
    · intro c
      rw [user_mem h hS hm, List.mem_filterMap]
      constructor
      · rintro ⟨i, j, x, y, -, hx, hy, h1⟩
        have hx := npGet_mem hx
        have hy := npGet_mem hy
        rcases triu_complete hx hy with ht | ht
        · exact ⟨_, ht, h1⟩
        · exact ⟨_, ht, by rw [pair_swap (goodMat_pos h) hx hy]; exact h1⟩
      · rintro ⟨⟨x, y⟩, hq, h1⟩
        obtain ⟨hx, hy⟩ := mem_triu hq
        obtain ⟨i, hi⟩ := List.mem_iff_getElem?.1 hx
        obtain ⟨j, hj⟩ := List.mem_iff_getElem?.1 hy
        have hi' := (List.getElem?_eq_some_iff.1 hi).1
        have hj' := (List.getElem?_eq_some_iff.1 hj).1
        refine ⟨i, j, x, y, ?_, npGet_nat h hS hi, npGet_nat h hS hj, h1⟩
        rcases Nat.le_total i j with hle | hle
        · exact hall i j hle hj'
        · exact (hall j i hle hi').symm
    · intro c hc d hd hA hB
      obtain ⟨i, j, x, y, -, hx, hy, h1⟩ := (user_mem h hS hm c).1 hc
      obtain ⟨i', j', x', y', -, hx', hy', h2⟩ := (user_mem h hS hm d).1 hd
      exact pair_key h hshort (npGet_mem hx) (npGet_mem hy) (npGet_mem hx') (npGet_mem hy') h1 h2 hA hB
  rw [this]

theorem npGet_err {α : Type} {l : List α} {i : Int} (hi : ¬ (-(l.length : Int) ≤ i ∧ i < l.length)) : npGet l i = .error .indexError := by
  unfold npGet
  split
  · next b hb =>
    have := (List.getElem?_eq_some_iff.1 hb).1
    rw [if_neg]
    intro h1
    apply hi
    refine ⟨h1, ?_⟩
    split at this <;> omega
  · rfl

/-- C103: a pair out of range raises IndexError. -/
theorem C103_range {ps : List (Int × Int)} (hr : ¬ PairsBelow (extFibers periodic S m.fibers).length ps) :
    netNew m periodic (some ps) = .error .indexError := by
  have hc := matCheck_frame_iff (m := m) |>.2 (Or.inr h)
  have key : ∀ (l : List (Nat × Fiber K)) (ps : List (Int × Int)), ¬ PairsBelow l.length ps → userPairs l ps = .error .indexError := by
    intro l ps
    induction ps with
    | nil => intro hn; exact absurd (by intro p hp; simp at hp) hn
    | cons p ps ih =>
      intro hn
      by_cases h1 : -(l.length : Int) ≤ p.1 ∧ p.1 < l.length
      · obtain ⟨a, ha, -⟩ := npGet_ok h1.1 h1.2
        by_cases h2 : -(l.length : Int) ≤ p.2 ∧ p.2 < l.length
        · obtain ⟨b, hb, -⟩ := npGet_ok h2.1 h2.2
          have := ih (fun hp => hn (by
            intro q hq
            rcases List.mem_cons.1 hq with rfl | hq
            · exact ⟨h1.1, h1.2, h2.1, h2.2⟩
            · exact hp q hq))
          simp [userPairs, ha, hb, this, Bind.bind, Except.bind]
        · simp [userPairs, ha, npGet_err h hS h2, Bind.bind, Except.bind]
      · simp [userPairs, npGet_err h hS h1, Bind.bind, Except.bind]
  have e := key _ ps hr
  unfold extFibers at e
  unfold netNew netInit
  rw [hc]
  cases periodic
  · simp only [Bool.false_eq_true, if_false] at e
    simp [e, Bind.bind, Except.bind]
  · simp only [if_true] at e
    simp [hS, e, Bind.bind, Except.bind]

end

/-! ### Concrete cases -/

/-- Two fibers of two fifths of the box; the first one crosses an image of the second one. -/
def halfMat : Mat ℚ :=
  { fibers := [⟨4, 1, 1, -4, 0, 0, 1, 0, 0, 1, ⊤⟩, ⟨4, 1, 1, 9 / 2, 1, 0, 0, 1, 0, 1, ⊤⟩]
    attrs := { n := some 2, size := some 10 } }

theorem halfMat_good : GoodMat halfMat := by
  have h : matCheck halfMat.frame = .ok () := by decide +kernel
  exact ((matCheck_frame_iff _).1 h).resolve_left (by simp [Skipped, halfMat])

theorem halfMat_short (periodic : Bool) : ShortIfPeriodic periodic 10 halfMat := by
  intro _
  simp only [halfMat, List.mem_cons, List.not_mem_nil, or_false, Planar]
  rintro f (rfl | rfl) <;> norm_num

/-- C103: the image of the first fiber is at position 2 of `mat_`; from the pair (2, 1) the connection of the two fibers is found. -/
example : (extFibers true 10 halfMat.fibers).length = 3 ∧ PairsBelow 3 [(2, 1), (0, 0)] ∧ PairsBelow 3 [(0, 0), (0, 0), (1, 2)] ∧
    SamePairs [(2, 1), (0, 0)] [(0, 0), (0, 0), (1, 2)] ∧
    ((netNew halfMat true (some [(2, 1), (0, 0)])).toOption.map (fun n => n.rows.map (fun r => (r.A, r.B, r.sA, r.sB)))) =
      some [(0, 0, 2, -2), (0, 1, -3 / 2, -1)] ∧
    ((netNew halfMat true none).toOption.map (fun n => n.rows.map (fun r => (r.A, r.B, r.sA, r.sB)))) =
      some [(0, 0, 2, -2), (0, 1, -3 / 2, -1), (1, 1, 2, -2)] := by
  refine ⟨by decide +kernel, by simp [PairsBelow], by simp [PairsBelow], ?_, by decide +kernel, by decide +kernel⟩
  intro i j
  simp only [List.mem_cons, Prod.mk.injEq, List.not_mem_nil, or_false]
  omega

/-- C103: the order matters for longer fibers: of the two crossings of `twiceMat` the first one listed is kept. -/
theorem C103_order_long :
    GoodMat twiceMat ∧ (∀ f ∈ twiceMat.fibers, Planar f ∧ f.l < 10) ∧
    PairsBelow (extFibers true 10 twiceMat.fibers).length [(0, 1), (1, 2)] ∧ SamePairs [(0, 1), (1, 2)] [(1, 2), (0, 1)] ∧
    (netNew twiceMat true (some [(0, 1), (1, 2)])).toOption.map (fun n => n.rows.map (fun r => (r.A, r.B, r.sA, r.sB))) = some [(0, 1, 3, -4)] ∧
    (netNew twiceMat true (some [(1, 2), (0, 1)])).toOption.map (fun n => n.rows.map (fun r => (r.A, r.B, r.sA, r.sB))) = some [(0, 1, -3, 4)] := by
  refine ⟨?_, ?_, ?_, ?_, by decide +kernel, by decide +kernel⟩
  · have h : matCheck twiceMat.frame = .ok () := by decide +kernel
    exact ((matCheck_frame_iff _).1 h).resolve_left (by simp [Skipped, twiceMat])
  · simp only [twiceMat, List.mem_cons, List.not_mem_nil, or_false, Planar]
    rintro f (rfl | rfl) <;> norm_num
  · have : (extFibers true 10 twiceMat.fibers).length = 7 := by decide +kernel
    rw [this]
    simp [PairsBelow]
  · intro i j
    simp only [List.mem_cons, Prod.mk.injEq, List.not_mem_nil, or_false]
    omega

end Fibermat
