import Verif.Lemmas.Net

/-! # C06-C13: `Net.init` and `Net` -/

set_option linter.unusedSectionVars false

namespace Fibermat
open Spec
variable {K : Type} [Field K] [LinearOrder K] [IsStrictOrderedRing K]

theorem goodMat_pos {m : Mat K} (h : GoodMat m) : ∀ f ∈ m.fibers, 0 < f.l := by
  obtain ⟨S, -, hf⟩ := h.size
  exact fun f hfm => (hf f hfm).l

theorem netRow_of {fs : List (Fiber K)} {c : Cand K} {f g : Fiber K} (hf : fs[c.A]? = some f) (hg : fs[c.B]? = some g) :
    netRow fs c = { A := c.A, B := c.B, sA := c.sA, sB := c.sB
                    xA := f.x + c.sA * f.u, yA := f.y + c.sA * f.v, zA := f.z + c.sA * f.w
                    xB := g.x + c.sB * g.u, yB := g.y + c.sB * g.v, zB := g.z + c.sB * g.w } := by
  simp [netRow, List.getD_eq_getElem?_getD, hf, hg]

/-- Labels of a candidate of the network. -/
theorem netCands_labels {periodic : Bool} {S : K} {fs : List (Fiber K)} (hl : ∀ f ∈ fs, 0 < f.l) {c : Cand K}
    (h : c ∈ netCands periodic S fs) : ∃ f g, fs[c.A]? = some f ∧ fs[c.B]? = some g ∧ c.A ≤ c.B := by
  rcases netCands_mem hl h with ⟨a, b, f, g, i, j, i', j', hab, hf, hg, -, hc⟩ | ⟨a, f, hf, rfl⟩
  · rw [candidate_ne hab (by exact hl f (List.mem_of_getElem? hf))] at hc
    obtain ⟨-, -, rfl, -⟩ := hc
    exact ⟨f, g, hf, hg, hab.le⟩
  · exact ⟨f, f, hf, hf, le_refl _⟩

theorem labels_netFrame (m : Net K) : LabelsInOrder m.frame.rows := by
  intro i h
  simp [Net.frame]

/-- The network built by `Net.init`. -/
def netOf (m : Mat K) (periodic : Bool) (S : K) : Net K :=
  { rows := (netCands periodic S m.fibers).map (netRow m.fibers)
    attrs := { m.attrs with periodic := some periodic } }

/-- A network made of sorted candidates with labels in range is valid. -/
theorem cands_valid {m : Mat K} (h : GoodMat m) (periodic : Bool) {cs : List (Cand K)} (hst : cs.Pairwise candLt)
    (hlab : ∀ c ∈ cs, c.A ≤ c.B ∧ c.B < m.fibers.length) :
    ValidNet (Net.frame ⟨cs.map (netRow m.fibers), { m.attrs with periodic := some periodic }⟩) := by
  obtain ⟨S, hS, -⟩ := h.size
  have hrow : ∀ r ∈ cs.map (netRow m.fibers),
      ∃ a b : Nat, r.A = (a : Int) ∧ r.B = (b : Int) ∧ a ≤ b ∧ b < m.fibers.length := by
    intro r hr
    obtain ⟨c, hc, rfl⟩ := List.mem_map.1 hr
    obtain ⟨hle, hlt⟩ := hlab c hc
    exact ⟨c.A, c.B, rfl, rfl, hle, hlt⟩
  have e : ((Net.frame ⟨cs.map (netRow m.fibers), { m.attrs with periodic := some periodic }⟩).rows).map Prod.snd =
      cs.map (netRow m.fibers) := by
    simp only [Net.frame, List.map_map]
    exact zipIdx_map_fst' _ 0
  have hmem : ∀ p ∈ (Net.frame ⟨cs.map (netRow m.fibers), { m.attrs with periodic := some periodic }⟩).rows,
      p.2 ∈ cs.map (netRow m.fibers) := by
    intro p hp
    rw [← e]
    exact List.mem_map_of_mem hp
  refine ⟨by simp [HasColumns, Net.frame, netColumns, netCols], ⟨⟨_, h.n⟩, ⟨S, hS⟩, ⟨periodic, rfl⟩⟩, labels_netFrame _, rfl,
    ?_, ?_, ?_⟩
  · intro p hp n hn
    obtain ⟨a, b, hA, hB, hab, hb⟩ := hrow _ (hmem p hp)
    have : m.attrs.n = some n := hn
    rw [h.n, Option.some.injEq] at this
    omega
  · have hst' : (cs.map (netRow m.fibers)).Pairwise
        (fun p q => ¬ (p.A = q.A ∧ p.B = q.B ∧ p.sA = q.sA ∧ p.sB = q.sB)) := by
      rw [List.pairwise_map]
      refine hst.imp ?_
      intro c d hcd hcon
      simp only [netRow, Nat.cast_inj] at hcon
      unfold candLt at hcd
      omega
    unfold NoRepeat
    rw [← e, List.pairwise_map] at hst'
    exact hst'
  · intro p hp
    obtain ⟨a, b, hA, hB, hab, hb⟩ := hrow _ (hmem p hp)
    omega

/-- The network of `Net.init` is valid. -/
theorem net_valid {m : Mat K} {S : K} (h : GoodMat m) (periodic : Bool) :
    ValidNet (netOf m periodic S).frame := by
  refine cands_valid h periodic (sortDedup_strict _) ?_
  intro c hc
  obtain ⟨f, g, hf, hg, hle⟩ := netCands_labels (goodMat_pos h) hc
  exact ⟨hle, (List.getElem?_eq_some_iff.1 hg).1⟩

theorem netNew_eq {m : Mat K} {S : K} (h : GoodMat m) (hS : m.attrs.size = some S) (periodic : Bool) :
    netNew m periodic = .ok
      { rows := (netCands periodic S m.fibers).map (netRow m.fibers)
        attrs := { m.attrs with periodic := some periodic } } := by
  have hc := (C14_netCheck_iff _).2 (Or.inr (net_valid (S := S) h periodic))
  unfold netOf at hc
  unfold netNew
  rw [netInit_eq h hS]
  simp only [Bind.bind, Except.bind, hc]
  rfl

theorem netNew_ok {m : Mat K} (h : GoodMat m) {periodic : Bool} {net : Net K} (hn : netNew m periodic = .ok net) :
    ∃ S, m.attrs.size = some S ∧ (∀ f ∈ m.fibers, GoodFiber S f) ∧
      net = { rows := (netCands periodic S m.fibers).map (netRow m.fibers)
              attrs := { m.attrs with periodic := some periodic } } := by
  obtain ⟨S, hS, hf⟩ := h.size
  rw [netNew_eq h hS] at hn
  exact ⟨S, hS, hf, by simpa using hn.symm⟩

/-- C06: `Net(mat)` never raises for a valid mat, and passes its check. -/
theorem C06_netNew_ok {m : Mat K} (h : GoodMat m) (periodic : Bool) :
    ∃ net, netNew m periodic = .ok net ∧ netInit m periodic none = .ok net ∧ ValidNet net.frame ∧
      net.attrs = { m.attrs with periodic := some periodic } := by
  obtain ⟨S, hS, -⟩ := h.size
  exact ⟨_, netNew_eq h hS periodic, netInit_eq h hS periodic, net_valid h periodic, rfl⟩

/-- C06: labels of the fibers of a row are in range and ordered. -/
theorem C06_labels {m : Mat K} (h : GoodMat m) {periodic : Bool} {net : Net K} (hn : netNew m periodic = .ok net) :
    ∀ r ∈ net.rows, 0 ≤ r.A ∧ r.A ≤ r.B ∧ r.B < (m.fibers.length : Int) := by
  obtain ⟨S, hS, hf, rfl⟩ := netNew_ok h hn
  intro r hr
  obtain ⟨c, hc, rfl⟩ := List.mem_map.1 hr
  obtain ⟨f, g, hf, hg, hle⟩ := netCands_labels (goodMat_pos h) hc
  have := (List.getElem?_eq_some_iff.1 hg).1
  simp only [netRow]; omega

/-- C06: rows are strictly increasing in (A, B). -/
theorem C06_increasing {m : Mat K} (h : GoodMat m) {periodic : Bool} {net : Net K} (hn : netNew m periodic = .ok net) :
    IncreasingAB net.rows := by
  obtain ⟨S, hS, hf, rfl⟩ := netNew_ok h hn
  unfold IncreasingAB
  rw [List.pairwise_map]
  refine (sortDedup_strict _).imp ?_
  intro c d hcd
  unfold candLt at hcd
  simp only [netRow]; omega

theorem row_unique {rows : List (NetRow K)} (h : IncreasingAB rows) {k k' : Nat} {r r' : NetRow K}
    (hr : rows[k]? = some r) (hr' : rows[k']? = some r') (hA : r.A = r'.A) (hB : r.B = r'.B) : k = k' := by
  obtain ⟨hk, rfl⟩ := List.getElem?_eq_some_iff.1 hr
  obtain ⟨hk', rfl⟩ := List.getElem?_eq_some_iff.1 hr'
  have h' := List.pairwise_iff_getElem.1 h
  rcases Nat.lt_trichotomy k k' with hlt | hlt | hlt
  · have := h' k k' hk hk' hlt; omega
  · exact hlt
  · have := h' k' k hk' hk hlt; omega

/-- C07: each fiber has exactly one row with `A = B`; it carries the two ends of the fiber. -/
theorem C07_end_row {m : Mat K} (h : GoodMat m) {periodic : Bool} {net : Net K} (hn : netNew m periodic = .ok net)
    {i : Nat} {f : Fiber K} (hf : m.fibers[i]? = some f) :
    ∃ (k : Nat) (r : NetRow K), net.rows[k]? = some r ∧ r.A = (i : Int) ∧ r.B = (i : Int) ∧ r.sA = f.l / 2 ∧ r.sB = -(f.l / 2) ∧
      (r.xA, r.yA, r.zA) = pointAt f (f.l / 2) ∧ (r.xB, r.yB, r.zB) = pointAt f (-(f.l / 2)) ∧
      ∀ (k' : Nat) (r' : NetRow K), net.rows[k']? = some r' → r'.A = (i : Int) → r'.B = (i : Int) → k' = k := by
  have hinc := C06_increasing h hn
  obtain ⟨S, hS, -, rfl⟩ := netNew_ok h hn
  have hmem := netCands_ends (periodic := periodic) (S := S) (goodMat_pos h) hf
  have hrm := List.mem_map_of_mem (f := netRow m.fibers) hmem
  obtain ⟨k, hk⟩ := List.mem_iff_getElem?.1 hrm
  rw [netRow_of (f := f) (g := f) hf hf] at hk
  refine ⟨k, _, hk, rfl, rfl, rfl, rfl, rfl, rfl, ?_⟩
  intro k' r' hk' hA hB
  exact row_unique hinc hk' hk hA hB

/-- C08: nodes lie on their fibers, strictly inside for connections. -/
theorem C08_nodes_on_fibers {m : Mat K} (h : GoodMat m) {periodic : Bool} {net : Net K}
    (hn : netNew m periodic = .ok net) {r : NetRow K} (hr : r ∈ net.rows) :
    ∃ f g, Joins m r f g ∧ (r.xA, r.yA, r.zA) = pointAt f r.sA ∧ (r.xB, r.yB, r.zB) = pointAt g r.sB ∧
      |r.sA| ≤ f.l / 2 ∧ |r.sB| ≤ g.l / 2 ∧ (r.A < r.B → |r.sA| < f.l / 2 ∧ |r.sB| < g.l / 2) := by
  obtain ⟨S, hS, -, rfl⟩ := netNew_ok h hn
  obtain ⟨c, hc, rfl⟩ := List.mem_map.1 hr
  rcases netCands_mem (goodMat_pos h) hc with ⟨a, b, f, g, i, j, i', j', hab, hf, hg, -, hcand⟩ | ⟨a, f, hf, rfl⟩
  · rw [candidate_ne hab (by exact goodMat_pos h f (List.mem_of_getElem? hf))] at hcand
    obtain ⟨-, -, rfl, h1, h2⟩ := hcand
    rw [netRow_of (f := f) (g := g) hf hg]
    exact ⟨f, g, ⟨a, b, rfl, rfl, hf, hg⟩, rfl, rfl, le_of_lt h1, le_of_lt h2, fun _ => ⟨h1, h2⟩⟩
  · have hpos := goodMat_pos h f (List.mem_of_getElem? hf)
    rw [netRow_of (f := f) (g := f) hf hf]
    refine ⟨f, f, ⟨a, a, rfl, rfl, hf, hf⟩, rfl, rfl, ?_, ?_, ?_⟩
    · simp only; rw [abs_of_pos (by linarith)]
    · simp only; rw [abs_neg, abs_of_pos (by linarith)]
    · intro hlt; simp at hlt

/-- The abscissae solve the normal equations. -/
theorem abscissae_normal {f g : Fiber K} (hd : detU f g ≠ 0) :
    dotR f f g = (abscissae f g).1 * dotU f f - (abscissae f g).2 * dotU f g ∧
    dotR g f g = (abscissae f g).1 * dotU f g - (abscissae f g).2 * dotU g g := by
  have hd' : dotU f f * dotU g g - dotU f g * dotU g f ≠ 0 := hd
  simp only [abscissae, hd, ne_eq, not_false_iff, if_true]
  rw [dotU_comm f g] at *
  have e : detU f g = dotU f f * dotU g g - dotU f g * dotU f g := by unfold detU; rw [dotU_comm f g]
  constructor
  · field_simp
    rw [e]; ring
  · field_simp
    rw [e]; ring

/-- The pair of points found is the nearest one on the two lines. -/
theorem abscissae_nearest {f g : Fiber K} (hd : detU f g ≠ 0) (s t : K) :
    dist2 (pointAt f (abscissae f g).1) (pointAt g (abscissae f g).2) ≤ dist2 (pointAt f s) (pointAt g t) := by
  obtain ⟨h1, h2⟩ := abscissae_normal hd
  set a := (abscissae f g).1
  set b := (abscissae f g).2
  have key : dist2 (pointAt f s) (pointAt g t) - dist2 (pointAt f a) (pointAt g b) =
      ((s - a) * f.u - (t - b) * g.u) ^ 2 + ((s - a) * f.v - (t - b) * g.v) ^ 2 + ((s - a) * f.w - (t - b) * g.w) ^ 2 := by
    simp only [dist2, pointAt, dotR, dotU] at *
    linear_combination (-2 * (s - a)) * h1 + (2 * (t - b)) * h2
  have : 0 ≤ dist2 (pointAt f s) (pointAt g t) - dist2 (pointAt f a) (pointAt g b) := by rw [key]; positivity
  linarith

theorem dist2_shift (S : K) (i j i' j' : ℤ) (f g : Fiber K) (s t : K) :
    dist2 (pointAt (shiftFiber S i j f) s) (pointAt (shiftFiber S i' j' g) t) =
      dist2 (pointAt f s) (moved S (i' - i) (j' - j) (pointAt g t)) := by
  simp only [dist2, pointAt, shiftFiber, moved]
  push_cast
  ring

/-- C09: connected nodes are nearest points of the two lines, up to a periodic shift. -/
theorem C09_nearest_points {m : Mat K} (h : GoodMat m) {S : K} (hS : m.attrs.size = some S) {periodic : Bool}
    {net : Net K} (hn : netNew m periodic = .ok net) {r : NetRow K} (hr : r ∈ net.rows) (hAB : r.A < r.B)
    {f g : Fiber K} (hj : Joins m r f g) :
    ∃ i j : ℤ, (periodic = false → i = 0 ∧ j = 0) ∧ ∀ s t : K,
      dist2 (r.xA, r.yA, r.zA) (moved S i j (r.xB, r.yB, r.zB)) ≤ dist2 (pointAt f s) (moved S i j (pointAt g t)) := by
  obtain ⟨S', hS', -, rfl⟩ := netNew_ok h hn
  rw [hS] at hS'; cases hS'
  obtain ⟨c, hc, rfl⟩ := List.mem_map.1 hr
  obtain ⟨a', b', hA, hB, hf', hg'⟩ := hj
  rcases netCands_mem (goodMat_pos h) hc with ⟨a, b, f, g, i, j, i', j', hab, hf, hg, hper, hcand⟩ | ⟨a, f, hf, rfl⟩
  · rw [candidate_ne hab (by exact goodMat_pos h f (List.mem_of_getElem? hf))] at hcand
    obtain ⟨-, hd, rfl, -⟩ := hcand
    rw [netRow_of (f := f) (g := g) hf hg] at *
    simp only [Nat.cast_inj] at hA hB
    subst hA
    subst hB
    rw [hf] at hf'; cases hf'
    rw [hg] at hg'; cases hg'
    refine ⟨i' - i, j' - j, ?_, ?_⟩
    · intro hp
      obtain ⟨rfl, rfl, rfl, rfl⟩ := hper hp
      simp
    · intro s t
      have := abscissae_nearest hd s t
      rw [dist2_shift, dist2_shift] at this
      exact this
  · simp [netRow] at hAB

/-! ### Crossing of planar fibers -/

/-- Where two horizontal lines cross. -/
theorem planar_cross {f g : Fiber K} (hf : f.w = 0) (hg : g.w = 0) (hp : NotParallel f g) (s t : K) :
    (f.x + s * f.u = g.x + t * g.u ∧ f.y + s * f.v = g.y + t * g.v) ↔ abscissae f g = (s, t) := by
  have hdet : detU f g = (f.u * g.v - f.v * g.u) ^ 2 := by
    simp only [detU, dotU, hf, hg]; ring
  have hd : detU f g ≠ 0 := by rw [hdet]; exact pow_ne_zero 2 hp
  have fwd : ∀ s t : K, f.x + s * f.u = g.x + t * g.u → f.y + s * f.v = g.y + t * g.v → abscissae f g = (s, t) := by
    intro s t h1 h2
    obtain ⟨n1, n2⟩ := abscissae_normal hd
    set a := (abscissae f g).1 with ha
    set b := (abscissae f g).2 with hb
    simp only [dotR, dotU, hf, hg] at n1 n2
    rw [hdet] at hd
    have e1 : (a - s) * (f.u * g.v - f.v * g.u) ^ 2 = 0 := by
      linear_combination (-(g.u * g.u + g.v * g.v)) * n1 + (f.u * g.u + f.v * g.v) * n2 +
        (-(g.u * g.u + g.v * g.v) * f.u + (f.u * g.u + f.v * g.v) * g.u) * h1 +
        (-(g.u * g.u + g.v * g.v) * f.v + (f.u * g.u + f.v * g.v) * g.v) * h2
    have e2 : (b - t) * (f.u * g.v - f.v * g.u) ^ 2 = 0 := by
      linear_combination (-(f.u * g.u + f.v * g.v)) * n1 + (f.u * f.u + f.v * f.v) * n2 +
        (-(f.u * g.u + f.v * g.v) * f.u + (f.u * f.u + f.v * f.v) * g.u) * h1 +
        (-(f.u * g.u + f.v * g.v) * f.v + (f.u * f.u + f.v * f.v) * g.v) * h2
    have e1' := (mul_eq_zero.1 e1).resolve_right hd
    have e2' := (mul_eq_zero.1 e2).resolve_right hd
    rw [Prod.ext_iff]
    exact ⟨by simp only; linarith, by simp only; linarith⟩
  constructor
  · rintro ⟨h1, h2⟩; exact fwd s t h1 h2
  · intro h
    have hp' : f.u * g.v - f.v * g.u ≠ 0 := hp
    -- Cramer's rule on the two equations
    set s0 := ((g.x - f.x) * g.v - (g.y - f.y) * g.u) / (f.u * g.v - f.v * g.u) with hs0
    set t0 := ((g.x - f.x) * f.v - (g.y - f.y) * f.u) / (f.u * g.v - f.v * g.u) with ht0
    have h1 : f.x + s0 * f.u = g.x + t0 * g.u := by
      rw [hs0, ht0, div_mul_eq_mul_div, div_mul_eq_mul_div, ← sub_eq_zero, add_sub_add_comm, ← sub_div, add_div_eq_mul_add_div _ _ hp', div_eq_zero_iff]
      left; ring
    have h2 : f.y + s0 * f.v = g.y + t0 * g.v := by
      rw [hs0, ht0, div_mul_eq_mul_div, div_mul_eq_mul_div, ← sub_eq_zero, add_sub_add_comm, ← sub_div, add_div_eq_mul_add_div _ _ hp', div_eq_zero_iff]
      left; ring
    have h3 := fwd s0 t0 h1 h2
    rw [h, Prod.mk.injEq] at h3
    rw [h3.1, h3.2]
    exact ⟨h1, h2⟩

theorem detU_planar {f g : Fiber K} (hf : f.w = 0) (hg : g.w = 0) : detU f g ≠ 0 ↔ NotParallel f g := by
  have hdet : detU f g = (f.u * g.v - f.v * g.u) ^ 2 := by
    simp only [detU, dotU, hf, hg]; ring
  rw [hdet, NotParallel]
  constructor
  · intro h h'; rw [h'] at h; simp at h
  · intro h; exact pow_ne_zero 2 h

/-- Crossing fibers are in each other's neighbourhood. -/
theorem nearby_of_cross {f g : Fiber K} (hf : Planar f) (hg : Planar g) {s t : K} (hs : |s| < f.l / 2) (ht : |t| < g.l / 2)
    (h1 : f.x + s * f.u = g.x + t * g.u) (h2 : f.y + s * f.v = g.y + t * g.v) : nearby f g = true := by
  obtain ⟨-, hf⟩ := hf
  obtain ⟨-, hg⟩ := hg
  have hs0 := abs_nonneg s
  have ht0 := abs_nonneg t
  have hcs : |f.u * g.u + f.v * g.v| ≤ 1 := by
    rw [abs_le_one_iff_mul_self_le_one]
    nlinarith [sq_nonneg (f.u * g.v - f.v * g.u)]
  have hdist : (f.x - g.x) ^ 2 + (f.y - g.y) ^ 2 ≤ (|s| + |t|) ^ 2 := by
    have e1 : f.x - g.x = t * g.u - s * f.u := by linear_combination h1
    have e2 : f.y - g.y = t * g.v - s * f.v := by linear_combination h2
    rw [e1, e2]
    have e3 : (t * g.u - s * f.u) ^ 2 + (t * g.v - s * f.v) ^ 2 = t ^ 2 + s ^ 2 - 2 * (s * t * (f.u * g.u + f.v * g.v)) := by
      linear_combination t ^ 2 * hg + s ^ 2 * hf
    rw [e3]
    have e4 : |s * t * (f.u * g.u + f.v * g.v)| ≤ |s| * |t| := by
      rw [abs_mul, abs_mul]
      exact mul_le_of_le_one_right (mul_nonneg hs0 ht0) hcs
    have e5 := neg_abs_le (s * t * (f.u * g.u + f.v * g.v))
    nlinarith [sq_abs s, sq_abs t]
  have hm : |s| + |t| < (f.l + g.l) / 2 := by linarith
  have hpos : 0 < (f.l + g.l) / 2 := by linarith
  simp only [nearby, Bool.and_eq_true, decide_eq_true_eq]
  exact ⟨hpos, lt_of_le_of_lt hdist (pow_lt_pow_left₀ hm (add_nonneg hs0 ht0) two_ne_zero)⟩

/-- The candidate of two horizontal fibers: their crossing. -/
theorem candidate_cross {a b : Nat} {f g : Fiber K} (hab : a < b) (hf : Planar f) (hg : Planar g) (hl : 0 < f.l)
    (hp : NotParallel f g) {s t : K} (hs : |s| < f.l / 2) (ht : |t| < g.l / 2)
    (h1 : f.x + s * f.u = g.x + t * g.u) (h2 : f.y + s * f.v = g.y + t * g.v) :
    candidate ((a, f), (b, g)) = some ⟨a, b, s, t⟩ := by
  have habs := (planar_cross hf.1 hg.1 hp s t).1 ⟨h1, h2⟩
  rw [candidate_ne hab hl]
  refine ⟨nearby_of_cross hf hg hs ht h1 h2, (detU_planar hf.1 hg.1).2 hp, by rw [habs], ?_, ?_⟩
  · rw [habs]; exact hs
  · rw [habs]; exact ht

/-- A row between horizontal fibers is a crossing (with a periodic image). -/
theorem row_cross {m : Mat K} (h : GoodMat m) {S : K} (hS : m.attrs.size = some S) (hw : ∀ f ∈ m.fibers, f.w = 0)
    {periodic : Bool} {net : Net K} (hn : netNew m periodic = .ok net) {r : NetRow K} (hr : r ∈ net.rows)
    (hAB : r.A < r.B) {f g : Fiber K} (hj : Joins m r f g) :
    NotParallel f g ∧ ∃ i j : ℤ, (periodic = false → i = 0 ∧ j = 0) ∧ CrossAt S i j f g r.sA r.sB := by
  obtain ⟨S', hS', -, rfl⟩ := netNew_ok h hn
  rw [hS] at hS'; cases hS'
  obtain ⟨c, hc, rfl⟩ := List.mem_map.1 hr
  obtain ⟨a', b', hA, hB, hf', hg'⟩ := hj
  rcases netCands_mem (goodMat_pos h) hc with ⟨a, b, f, g, i, j, i', j', hab, hf, hg, hper, hcand⟩ | ⟨a, f, hf, rfl⟩
  · rw [candidate_ne hab (by exact goodMat_pos h f (List.mem_of_getElem? hf))] at hcand
    obtain ⟨-, hd, rfl, h1, h2⟩ := hcand
    rw [netRow_of (f := f) (g := g) hf hg] at *
    simp only [Nat.cast_inj] at hA hB
    subst hA
    subst hB
    rw [hf] at hf'; cases hf'
    rw [hg] at hg'; cases hg'
    have hwf : (shiftFiber S i j f).w = 0 := hw f (List.mem_of_getElem? hf)
    have hwg : (shiftFiber S i' j' g).w = 0 := hw g (List.mem_of_getElem? hg)
    have hnp := (detU_planar hwf hwg).1 hd
    obtain ⟨e1, e2⟩ := (planar_cross hwf hwg hnp _ _).2 (Prod.mk.eta.symm)
    refine ⟨hnp, i' - i, j' - j, ?_, h1, h2, ?_, ?_⟩
    · intro hp
      obtain ⟨rfl, rfl, rfl, rfl⟩ := hper hp
      simp
    · simp only [shiftFiber] at e1 ⊢
      push_cast
      linear_combination e1
    · simp only [shiftFiber] at e2 ⊢
      push_cast
      linear_combination e2
  · simp [netRow] at hAB

/-- C10: in an open box, a row between horizontal fibers is their crossing. -/
theorem C10_row_is_crossing {m : Mat K} (h : GoodMat m) (hp : ∀ f ∈ m.fibers, Planar f)
    {net : Net K} (hn : netNew m false = .ok net) {r : NetRow K} (hr : r ∈ net.rows)
    (hAB : r.A < r.B) {f g : Fiber K} (hj : Joins m r f g) :
    NotParallel f g ∧ CrossAt 0 0 0 f g r.sA r.sB := by
  obtain ⟨S, hS, -⟩ := h.size
  obtain ⟨h1, i, j, hij, h2⟩ := row_cross h hS (fun f hf => (hp f hf).1) hn hr hAB hj
  obtain ⟨rfl, rfl⟩ := hij rfl
  refine ⟨h1, h2.1, h2.2.1, ?_, ?_⟩
  · have := h2.2.2.1; simpa using this
  · have := h2.2.2.2; simpa using this

/-- C10: in an open box, every crossing of two fibers is a row. -/
theorem C10_crossing_is_row {m : Mat K} (h : GoodMat m) (hp : ∀ f ∈ m.fibers, Planar f)
    {net : Net K} (hn : netNew m false = .ok net) {a b : Nat} {f g : Fiber K} (hab : a < b)
    (hf : m.fibers[a]? = some f) (hg : m.fibers[b]? = some g) (hnp : NotParallel f g) {s t : K}
    (hc : CrossAt 0 0 0 f g s t) : ∃ r ∈ net.rows, r.A = (a : Int) ∧ r.B = (b : Int) ∧ r.sA = s ∧ r.sB = t := by
  have hn' := hn
  obtain ⟨S, hS, -, rfl⟩ := netNew_ok h hn
  obtain ⟨hs, ht, h1, h2⟩ := hc
  have hfm := List.mem_of_getElem? hf
  have hgm := List.mem_of_getElem? hg
  have hcand := candidate_cross hab (hp f hfm) (hp g hgm) (goodMat_pos h f hfm) hnp hs ht (by simpa using h1) (by simpa using h2)
  obtain ⟨d, hd, e1, e2⟩ := netCands_complete (periodic := false) (S := S) (ext_base hf) (ext_base hg)
    (goodMat_pos h f hfm) (goodMat_pos h g hgm) hab hcand
  have hdm := List.mem_map_of_mem (f := netRow m.fibers) hd
  refine ⟨netRow m.fibers d, hdm, by simp [netRow, e1], by simp [netRow, e2], ?_⟩
  have hj : Joins m (netRow m.fibers d) f g := ⟨a, b, by simp [netRow, e1], by simp [netRow, e2], hf, hg⟩
  obtain ⟨-, hx⟩ := C10_row_is_crossing h hp hn' hdm (by simp [netRow, e1, e2]; exact hab) hj
  have q1 := (planar_cross (hp f hfm).1 (hp g hgm).1 hnp s t).1 ⟨by simpa using h1, by simpa using h2⟩
  have q2 := (planar_cross (hp f hfm).1 (hp g hgm).1 hnp _ _).1 ⟨by simpa using hx.2.2.1, by simpa using hx.2.2.2⟩
  rw [q1, Prod.mk.injEq] at q2
  exact ⟨q2.1.symm, q2.2.symm⟩

/-- C11: in a periodic box, a row between horizontal fibers is the crossing of a fiber with an image of the other. -/
theorem C11_row_is_crossing {m : Mat K} (h : GoodMat m) {S : K} (hS : m.attrs.size = some S)
    (hp : ∀ f ∈ m.fibers, Planar f) {net : Net K} (hn : netNew m true = .ok net) {r : NetRow K} (hr : r ∈ net.rows)
    (hAB : r.A < r.B) {f g : Fiber K} (hj : Joins m r f g) :
    NotParallel f g ∧ ∃ i j : ℤ, CrossAt S i j f g r.sA r.sB := by
  obtain ⟨h1, i, j, -, h2⟩ := row_cross h hS (fun f hf => (hp f hf).1) hn hr hAB hj
  exact ⟨h1, i, j, h2⟩

theorem le_maxLength {fs : List (Fiber K)} {f : Fiber K} (hf : f ∈ fs) : f.l ≤ maxLength fs := by
  have hfold : ∀ (gs : List (Fiber K)) (m0 : K), m0 ≤ gs.foldl (fun m g => max m g.l) m0 ∧
      ∀ g ∈ gs, g.l ≤ gs.foldl (fun m g => max m g.l) m0 := by
    intro gs
    induction gs with
    | nil => simp
    | cons g t ih =>
      intro m0
      obtain ⟨h1, h2⟩ := ih (max m0 g.l)
      refine ⟨le_trans (le_max_left _ _) h1, ?_⟩
      intro g' hg'
      rcases List.mem_cons.1 hg' with rfl | hg'
      · exact le_trans (le_max_right _ _) h1
      · exact h2 g' hg'
  cases fs with
  | nil => simp at hf
  | cons a t =>
    unfold maxLength
    rcases List.mem_cons.1 hf with rfl | hf
    · exact (hfold t _).1
    · exact (hfold t _).2 f hf

theorem planar_bounds {f : Fiber K} (hf : Planar f) {s : K} : |s * f.u| ≤ |s| ∧ |s * f.v| ≤ |s| := by
  obtain ⟨-, h⟩ := hf
  have hu : |f.u| ≤ 1 := by rw [abs_le_one_iff_mul_self_le_one]; nlinarith [sq_nonneg f.v]
  have hv : |f.v| ≤ 1 := by rw [abs_le_one_iff_mul_self_le_one]; nlinarith [sq_nonneg f.u]
  rw [abs_mul, abs_mul]
  exact ⟨mul_le_of_le_one_right (abs_nonneg s) hu, mul_le_of_le_one_right (abs_nonneg s) hv⟩

theorem int_small {S d L : K} (i : ℤ) (hS : 0 ≤ S) (hd : |d| ≤ S) (hL : L ≤ S) (h : |d - i * S| < L) :
    i = 0 ∨ i = 1 ∨ i = -1 := by
  rw [abs_le] at hd
  rw [abs_lt] at h
  have hS' : 0 < S := by
    rcases hS.lt_or_eq with h' | h'
    · exact h'
    · exfalso; linarith [h.1, h.2]
  have h1 : (i : K) * S < 2 * S := by linarith [h.1, hd.2]
  have h2 : -(2 * S) < (i : K) * S := by linarith [h.2, hd.1]
  have h3 : (i : K) < 2 := lt_of_mul_lt_mul_right h1 hS
  have h4 : (-2 : K) < (i : K) := by
    apply lt_of_mul_lt_mul_right _ hS; linarith
  have h3' : i < 2 := by exact_mod_cast h3
  have h4' : -2 < i := by exact_mod_cast h4
  omega

/-- Two copies of the fibers with a given relative position are in `mat_`. -/
theorem images_exist {S : K} {fs : List (Fiber K)} {a b : Nat} {f g : Fiber K} (hf : fs[a]? = some f) (hg : fs[b]? = some g)
    (hfx : -(S / 2) ≤ f.x ∧ f.x ≤ S / 2) (hfy : -(S / 2) ≤ f.y ∧ f.y ≤ S / 2)
    (hgx : -(S / 2) ≤ g.x ∧ g.x ≤ S / 2) (hgy : -(S / 2) ≤ g.y ∧ g.y ≤ S / 2)
    {i j : ℤ} (hi : i = 0 ∨ i = 1 ∨ i = -1) (hj : j = 0 ∨ j = 1 ∨ j = -1)
    (hx : |f.x - g.x - i * S| < maxLength fs) (hy : |f.y - g.y - j * S| < maxLength fs) :
    ∃ i1 j1 i2 j2 : ℤ, i2 - i1 = i ∧ j2 - j1 = j ∧
      (a, shiftFiber S i1 j1 f) ∈ periodicFibers S fs ∧ (b, shiftFiber S i2 j2 g) ∈ periodicFibers S fs := by
  rw [abs_lt] at hx hy
  have base : ∀ {a : Nat} {f : Fiber K}, fs[a]? = some f → (a, shiftFiber S 0 0 f) ∈ periodicFibers S fs := by
    intro a f hf
    rw [shiftFiber_zero]; exact mem_periodic.2 ⟨f, hf, Or.inl rfl⟩
  have copyX : ∀ {a : Nat} {f : Fiber K}, fs[a]? = some f → f.x < -(S / 2) + maxLength fs →
      (a, shiftFiber S 1 0 f) ∈ periodicFibers S fs := by
    intro a f hf h
    exact mem_periodic.2 ⟨f, hf, Or.inr (Or.inl ⟨h, by simp [shiftFiber]⟩)⟩
  have copyY : ∀ {a : Nat} {f : Fiber K}, fs[a]? = some f → f.y < -(S / 2) + maxLength fs →
      (a, shiftFiber S 0 1 f) ∈ periodicFibers S fs := by
    intro a f hf h
    exact mem_periodic.2 ⟨f, hf, Or.inr (Or.inr (Or.inl ⟨h, by simp [shiftFiber]⟩))⟩
  have copyXY : ∀ {a : Nat} {f : Fiber K}, fs[a]? = some f → f.x > S / 2 - maxLength fs → f.y > S / 2 - maxLength fs →
      (a, shiftFiber S (-1) (-1) f) ∈ periodicFibers S fs := by
    intro a f hf h h'
    exact mem_periodic.2 ⟨f, hf, Or.inr (Or.inr (Or.inr ⟨h, h', by simp [shiftFiber, sub_eq_add_neg]⟩))⟩
  rcases hi with rfl | rfl | rfl <;> rcases hj with rfl | rfl | rfl <;> simp at hx hy
  · exact ⟨0, 0, 0, 0, by simp, by simp, base hf, base hg⟩
  · exact ⟨0, 0, 0, 1, by simp, by simp, base hf, copyY hg (by linarith)⟩
  · exact ⟨0, 1, 0, 0, by simp, by simp, copyY hf (by linarith), base hg⟩
  · exact ⟨0, 0, 1, 0, by simp, by simp, base hf, copyX hg (by linarith)⟩
  · exact ⟨-1, -1, 0, 0, by simp, by simp, copyXY hf (by linarith) (by linarith), base hg⟩
  · exact ⟨0, 1, 1, 0, by simp, by simp, copyY hf (by linarith), copyX hg (by linarith)⟩
  · exact ⟨1, 0, 0, 0, by simp, by simp, copyX hf (by linarith), base hg⟩
  · exact ⟨1, 0, 0, 1, by simp, by simp, copyX hf (by linarith), copyY hg (by linarith)⟩
  · exact ⟨0, 0, -1, -1, by simp, by simp, base hf, copyXY hg (by linarith) (by linarith)⟩

/-- C11: in a periodic box, if a fiber crosses some image of another one, there is a row for them. -/
theorem C11_crossing_is_row {m : Mat K} (h : GoodMat m) {S : K} (hS : m.attrs.size = some S)
    (hp : ∀ f ∈ m.fibers, Planar f) (hlen : ∀ f ∈ m.fibers, f.l ≤ S) {net : Net K} (hn : netNew m true = .ok net)
    {a b : Nat} {f g : Fiber K} (hab : a < b) (hf : m.fibers[a]? = some f) (hg : m.fibers[b]? = some g)
    (hnp : NotParallel f g) {i j : ℤ} {s t : K} (hc : CrossAt S i j f g s t) :
    ∃ r ∈ net.rows, r.A = (a : Int) ∧ r.B = (b : Int) := by
  obtain ⟨S', hS', hgood, rfl⟩ := netNew_ok h hn
  rw [hS] at hS'; cases hS'
  obtain ⟨hs, ht, h1, h2⟩ := hc
  have hfm := List.mem_of_getElem? hf
  have hgm := List.mem_of_getElem? hg
  have gf := hgood f hfm
  have gg := hgood g hgm
  have hS0 : 0 ≤ S := by linarith [gf.x1, gf.x2]
  have hLf := le_maxLength hfm
  have hLg := le_maxLength hgm
  have hLS : maxLength m.fibers ≤ S := by
    have : ∃ e ∈ m.fibers, maxLength m.fibers = e.l := by
      have hfold : ∀ (gs : List (Fiber K)) (e0 : Fiber K), ∃ e ∈ e0 :: gs, gs.foldl (fun m g => max m g.l) e0.l = e.l := by
        intro gs
        induction gs with
        | nil => intro e0; exact ⟨e0, by simp, rfl⟩
        | cons q u ih =>
          intro e0
          rw [List.foldl_cons]
          rcases le_total e0.l q.l with hle | hle
          · rw [max_eq_right hle]
            obtain ⟨e, he, e2⟩ := ih q
            exact ⟨e, List.mem_cons_of_mem _ he, e2⟩
          · rw [max_eq_left hle]
            obtain ⟨e, he, e2⟩ := ih e0
            refine ⟨e, ?_, e2⟩
            rcases List.mem_cons.1 he with rfl | he
            · simp
            · simp [he]
      cases hfs : m.fibers with
      | nil => rw [hfs] at hfm; simp at hfm
      | cons e0 gs => exact hfold gs e0
    obtain ⟨e, he, e2⟩ := this
    rw [e2]; exact hlen e he
  obtain ⟨bu, bv⟩ := planar_bounds (hp f hfm) (s := s)
  obtain ⟨bu', bv'⟩ := planar_bounds (hp g hgm) (s := t)
  rw [abs_le] at bu bv bu' bv'
  have hx : |f.x - g.x - i * S| < maxLength m.fibers := by rw [abs_lt]; constructor <;> linarith
  have hy : |f.y - g.y - j * S| < maxLength m.fibers := by rw [abs_lt]; constructor <;> linarith
  have hdx : |f.x - g.x| ≤ S := by rw [abs_le]; constructor <;> linarith [gf.x1, gf.x2, gg.x1, gg.x2]
  have hdy : |f.y - g.y| ≤ S := by rw [abs_le]; constructor <;> linarith [gf.y1, gf.y2, gg.y1, gg.y2]
  obtain ⟨i1, j1, i2, j2, ei, ej, ha, hb⟩ := images_exist hf hg ⟨gf.x1, gf.x2⟩ ⟨gf.y1, gf.y2⟩ ⟨gg.x1, gg.x2⟩
    ⟨gg.y1, gg.y2⟩ (int_small i hS0 hdx hLS hx) (int_small j hS0 hdy hLS hy) hx hy
  have ei' : (i : K) = i2 - i1 := by rw [← ei]; push_cast; ring
  have ej' : (j : K) = j2 - j1 := by rw [← ej]; push_cast; ring
  rw [ei'] at h1
  rw [ej'] at h2
  have hcand := candidate_cross (a := a) (b := b) (f := shiftFiber S i1 j1 f) (g := shiftFiber S i2 j2 g) hab
    (hp f hfm) (hp g hgm) gf.l hnp hs ht (by simp only [shiftFiber]; linear_combination h1)
    (by simp only [shiftFiber]; linear_combination h2)
  obtain ⟨d, hd, e1, e2⟩ := netCands_complete (periodic := true) (S := S) (fs := m.fibers) (by exact ha) (by exact hb)
    (by exact gf.l) (by exact gg.l) hab hcand
  exact ⟨netRow m.fibers d, List.mem_map_of_mem hd, by simp [netRow, e1], by simp [netRow, e2]⟩

/-! ### Heights -/

/-- The fiber put at height zero. -/
def flat (f : Fiber K) : Fiber K := { f with z := 0 }

theorem candidate_flat {a b : Nat} {f g : Fiber K} (hf : f.w = 0) (hg : g.w = 0) :
    candidate ((a, flat f), (b, flat g)) = candidate ((a, f), (b, g)) := by
  have h1 : abscissae (flat f) (flat g) = abscissae f g := by
    simp only [abscissae, detU, dotU, dotR, flat, hf, hg, zero_mul]
  have h2 : nearby (flat f) (flat g) = nearby f g := rfl
  simp only [candidate, h1, h2]
  rfl

theorem maxLength_flat (fs : List (Fiber K)) : maxLength (fs.map flat) = maxLength fs := by
  cases fs with
  | nil => rfl
  | cons f t => simp only [maxLength, List.map_cons, List.foldl_map]; rfl

theorem plain_flat (fs : List (Fiber K)) :
    (fs.map flat).zipIdx.map (fun p => (p.2, p.1)) = (fs.zipIdx.map (fun p => (p.2, p.1))).map (fun p => (p.1, flat p.2)) := by
  rw [List.zipIdx_map, List.map_map, List.map_map]; rfl

theorem ext_flat (periodic : Bool) (S : K) (fs : List (Fiber K)) :
    extFibers periodic S (fs.map flat) = (extFibers periodic S fs).map (fun p => (p.1, flat p.2)) := by
  unfold extFibers
  cases periodic with
  | false => exact plain_flat fs
  | true =>
    simp only [if_true, periodicFibers, maxLength_flat, plain_flat, List.map_append, List.map_map, List.filter_map]
    rfl

theorem triu_map {α β : Type} (φ : α → β) (l : List α) : triu (l.map φ) = (triu l).map (fun p => (φ p.1, φ p.2)) := by
  induction l with
  | nil => rfl
  | cons a t ih => simp [triu, ih, List.map_append, List.map_map, Function.comp_def]

theorem netCands_flat (periodic : Bool) (S : K) {fs : List (Fiber K)} (hw : ∀ f ∈ fs, f.w = 0) :
    netCands periodic S (fs.map flat) = netCands periodic S fs := by
  unfold netCands
  rw [ext_flat, triu_map, List.filterMap_map]
  congr 1
  refine List.filterMap_congr ?_
  rintro ⟨⟨a, f⟩, ⟨b, g⟩⟩ hp
  obtain ⟨h1, h2⟩ := mem_triu hp
  obtain ⟨f0, i, j, hf0, hf, -⟩ := ext_image h1
  obtain ⟨g0, i', j', hg0, hg, -⟩ := ext_image h2
  simp only at hf hg
  subst hf
  subst hg
  exact candidate_flat (hw f0 (List.mem_of_getElem? hf0)) (hw g0 (List.mem_of_getElem? hg0))

/-- C12: heights do not change the connections of horizontal fibers. -/
theorem C12_heights_irrelevant {m m' : Mat K} (h : GoodMat m) (h' : GoodMat m') (hw : ∀ f ∈ m.fibers, f.w = 0)
    (hz : SameExceptZ m m') {periodic : Bool} {net net' : Net K} (hn : netNew m periodic = .ok net)
    (hn' : netNew m' periodic = .ok net') :
    net.attrs = net'.attrs ∧
    net.rows.map (fun r => (r.A, r.B, r.sA, r.sB, r.xA, r.yA, r.xB, r.yB)) =
      net'.rows.map (fun r => (r.A, r.B, r.sA, r.sB, r.xA, r.yA, r.xB, r.yB)) := by
  obtain ⟨hattrs, hz⟩ := hz
  obtain ⟨S, hS, -, rfl⟩ := netNew_ok h hn
  obtain ⟨S', hS', -, rfl⟩ := netNew_ok h' hn'
  rw [← hattrs, hS] at hS'; cases hS'
  have hz' : m.fibers.map flat = m'.fibers.map flat := hz
  have hw' : ∀ f ∈ m'.fibers, f.w = 0 := by
    intro f hf
    have := List.mem_map_of_mem (f := flat) hf
    rw [← hz'] at this
    obtain ⟨g, hg, e⟩ := List.mem_map.1 this
    have := hw g hg
    have e2 := congrArg Fiber.w e
    exact e2.symm.trans this
  refine ⟨by simp [hattrs], ?_⟩
  simp only [List.map_map]
  rw [← netCands_flat periodic S hw, ← netCands_flat periodic S hw', ← hz']
  refine List.map_congr_left ?_
  intro c hc
  have e : ∀ i : Nat, flat (m.fibers.getD i Fiber.zero) = flat (m'.fibers.getD i Fiber.zero) := by
    intro i
    have e1 : ∀ fs : List (Fiber K), flat (fs.getD i Fiber.zero) = (fs.map flat).getD i (flat Fiber.zero) := by
      intro fs
      simp only [List.getD_eq_getElem?_getD, List.getElem?_map]
      cases fs[i]? <;> rfl
    rw [e1, e1, hz']
  have ea := e c.A
  have eb := e c.B
  simp only [flat, Fiber.mk.injEq] at ea eb
  simp only [Function.comp, netRow, ea, eb]

/-! ### User pairs -/

theorem npGet_ok {α : Type} {l : List α} {i : Int} (h1 : -(l.length : Int) ≤ i) (h2 : i < l.length) :
    ∃ a, npGet l i = .ok a ∧ a ∈ l := by
  have hlt : (if i < 0 then i + l.length else i).toNat < l.length := by split <;> omega
  refine ⟨l[(if i < 0 then i + l.length else i).toNat], ?_, List.getElem_mem _⟩
  simp [npGet, List.getElem?_eq_getElem hlt, h1]

/-- `values[pairs]` with indices in range. -/
theorem userPairs_ok {α : Type} {l : List α} {ps : List (Int × Int)}
    (h : ∀ p ∈ ps, -(l.length : Int) ≤ p.1 ∧ p.1 < l.length ∧ -(l.length : Int) ≤ p.2 ∧ p.2 < l.length) :
    ∃ r, userPairs l ps = .ok r ∧
      ∀ q, q ∈ r ↔ ∃ p ∈ ps, npGet l p.1 = .ok q.1 ∧ npGet l p.2 = .ok q.2 := by
  induction ps with
  | nil => exact ⟨[], rfl, by simp⟩
  | cons p ps ih =>
    obtain ⟨r, hr, hmem⟩ := ih (fun q hq => h q (List.mem_cons_of_mem _ hq))
    obtain ⟨h1, h2, h3, h4⟩ := h p (by simp)
    obtain ⟨a, ha, -⟩ := npGet_ok h1 h2
    obtain ⟨b, hb, -⟩ := npGet_ok h3 h4
    refine ⟨(a, b) :: r, by simp [userPairs, ha, hb, hr, Bind.bind, Except.bind, pure, Except.pure], ?_⟩
    rintro ⟨x, y⟩
    simp only [List.mem_cons, Prod.mk.injEq, hmem, exists_eq_or_imp, ha, hb, Except.ok.injEq]
    constructor
    · rintro (⟨rfl, rfl⟩ | h)
      · exact Or.inl ⟨rfl, rfl⟩
      · exact Or.inr h
    · rintro (⟨rfl, rfl⟩ | h)
      · exact Or.inl ⟨rfl, rfl⟩
      · exact Or.inr h

theorem npGet_mem {α : Type} {l : List α} {i : Int} {a : α} (h : npGet l i = .ok a) : a ∈ l := by
  unfold npGet at h
  split at h
  · next b hb =>
    split at h
    · cases h; exact List.mem_of_getElem? hb
    · cases h
  · cases h

/-- Without periodic copies a candidate does not depend on the orientation of the pair. -/
theorem candidate_symm {fs : List (Fiber K)} (hl : ∀ f ∈ fs, 0 < f.l) {p q : Nat × Fiber K}
    (hp : p ∈ plainFibers fs) (hq : q ∈ plainFibers fs) : candidate (q, p) = candidate (p, q) := by
  obtain ⟨a, f⟩ := p
  obtain ⟨b, g⟩ := q
  have hf := mem_plain.1 hp
  have hg := mem_plain.1 hq
  simp only at hf hg
  by_cases hab : a = b
  · subst hab
    rw [hf] at hg; cases hg; rfl
  · exact candidate_swap hab (hl f (List.mem_of_getElem? hf)) (hl g (List.mem_of_getElem? hg))

theorem candidate_labels {p q : Nat × Fiber K} {c : Cand K} (h : candidate (p, q) = some c) :
    c.A ≤ c.B ∧ ((c.A = p.1 ∧ c.B = q.1) ∨ (c.A = q.1 ∧ c.B = p.1)) := by
  unfold candidate at h
  simp only at h
  split at h
  · split at h
    · split at h
      · cases h; exact ⟨by assumption, Or.inl ⟨rfl, rfl⟩⟩
      · cases h; exact ⟨by simp only; omega, Or.inr ⟨rfl, rfl⟩⟩
    · cases h
  · cases h

/-- C13: in-range pairs do not make `Net` raise, and only the set of unordered pairs matters (open box). -/
theorem C13_pairs {m : Mat K} (h : GoodMat m) {ps ps' : List (Int × Int)} (hr : PairsInRange m ps)
    (hr' : PairsInRange m ps') (hsame : SamePairs ps ps') :
    ∃ net, netNew m false (some ps) = .ok net ∧ netNew m false (some ps') = .ok net ∧ ValidNet net.frame := by
  have hl := goodMat_pos h
  have hlen : (plainFibers m.fibers).length = m.fibers.length := by simp [plainFibers]
  have hr1 := hr
  have hr1' := hr'
  unfold PairsInRange at hr1 hr1'
  rw [← hlen] at hr1 hr1'
  obtain ⟨r, e, hm⟩ := userPairs_ok hr1
  obtain ⟨r', e', hm'⟩ := userPairs_ok hr1'
  have hmemc : ∀ {ps : List (Int × Int)} {r : List ((Nat × Fiber K) × (Nat × Fiber K))},
      (∀ q, q ∈ r ↔ ∃ p ∈ ps, npGet (plainFibers m.fibers) p.1 = .ok q.1 ∧ npGet (plainFibers m.fibers) p.2 = .ok q.2) →
      ∀ c, c ∈ r.filterMap candidate ↔ ∃ i j x y, ((i, j) ∈ ps ∨ (j, i) ∈ ps) ∧
        npGet (plainFibers m.fibers) i = .ok x ∧ npGet (plainFibers m.fibers) j = .ok y ∧ candidate (x, y) = some c := by
    intro ps r hm c
    rw [List.mem_filterMap]
    constructor
    · rintro ⟨⟨x, y⟩, hq, hc⟩
      obtain ⟨⟨i, j⟩, hp, hx, hy⟩ := (hm _).1 hq
      exact ⟨i, j, x, y, Or.inl hp, hx, hy, hc⟩
    · rintro ⟨i, j, x, y, hp | hp, hx, hy, hc⟩
      · exact ⟨(x, y), (hm _).2 ⟨(i, j), hp, hx, hy⟩, hc⟩
      · refine ⟨(y, x), (hm _).2 ⟨(j, i), hp, hy, hx⟩, ?_⟩
        rw [candidate_symm hl (npGet_mem hx) (npGet_mem hy)]; exact hc
  have hc := hmemc hm
  have hc' := hmemc hm'
  have key : ∀ c ∈ r.filterMap candidate, ∃ x y, x ∈ plainFibers m.fibers ∧ y ∈ plainFibers m.fibers ∧
      x.1 = c.A ∧ y.1 = c.B ∧ c.A ≤ c.B ∧ candidate (x, y) = some c := by
    intro c hcm
    obtain ⟨i, j, x, y, -, hx, hy, hcand⟩ := (hc c).1 hcm
    obtain ⟨hle, ⟨h1, h2⟩ | ⟨h1, h2⟩⟩ := candidate_labels hcand
    · exact ⟨x, y, npGet_mem hx, npGet_mem hy, h1.symm, h2.symm, hle, hcand⟩
    · refine ⟨y, x, npGet_mem hy, npGet_mem hx, h1.symm, h2.symm, hle, ?_⟩
      rw [candidate_symm hl (npGet_mem hx) (npGet_mem hy)]; exact hcand
  have hcongr : sortDedup (r.filterMap candidate) = sortDedup (r'.filterMap candidate) := by
    apply sortDedup_congr
    · intro c
      rw [hc, hc']
      constructor
      · rintro ⟨i, j, x, y, hp, hrest⟩; exact ⟨i, j, x, y, (hsame i j).1 hp, hrest⟩
      · rintro ⟨i, j, x, y, hp, hrest⟩; exact ⟨i, j, x, y, (hsame i j).2 hp, hrest⟩
    · intro c hcm d hdm hA hB
      obtain ⟨x, y, hx, hy, hxa, hyb, -, hxy⟩ := key c hcm
      obtain ⟨x', y', hx', hy', hxa', hyb', -, hxy'⟩ := key d hdm
      have ex : x = x' := by
        have h1 := mem_plain.1 hx
        have h2 := mem_plain.1 hx'
        have h3 : x.1 = x'.1 := by omega
        rw [h3, h2, Option.some.injEq] at h1
        exact Prod.ext h3 h1.symm
      have ey : y = y' := by
        have h1 := mem_plain.1 hy
        have h2 := mem_plain.1 hy'
        have h3 : y.1 = y'.1 := by omega
        rw [h3, h2, Option.some.injEq] at h1
        exact Prod.ext h3 h1.symm
      subst ex; subst ey
      rw [hxy] at hxy'
      exact Option.some.inj hxy'
  have hmat := matCheck_frame_iff (m := m) |>.2 (Or.inr h)
  have hvalid := cands_valid h false (cs := sortDedup (r.filterMap candidate)) (sortDedup_strict _) (by
    intro c hcm
    obtain ⟨x, y, hx, hy, hxa, hyb, hle, -⟩ := key c (sortDedup_mem hcm)
    have := (List.getElem?_eq_some_iff.1 (mem_plain.1 hy)).1
    exact ⟨hle, by omega⟩)
  have hck := (C14_netCheck_iff _).2 (Or.inr hvalid)
  refine ⟨_, ?_, ?_, hvalid⟩
  · simp [netNew, netInit, hmat, e, hck, Bind.bind, Except.bind, pure, Except.pure]
  · rw [hcongr] at hck ⊢
    simp [netNew, netInit, hmat, e', hck, Bind.bind, Except.bind, pure, Except.pure]

/-! ### Concrete cases -/

/-- Three horizontal fibers in a box of side 20: 0 and 1 cross, 0 crosses an image of 2. -/
def crossMat : Mat ℚ :=
  { fibers := [⟨10, 1, 1, 8, 0, 5, 1, 0, 0, 1, ⊤⟩, ⟨8, 1, 2, 5, 1, 0, 0, 1, 0, 1, ⊤⟩,
               ⟨10, 1, 1, -9, 0, 7, 3 / 5, 4 / 5, 0, 1, ⊤⟩]
    attrs := { n := some 3, size := some 20 } }

theorem crossMat_good : GoodMat crossMat := by
  have h : matCheck crossMat.frame = .ok () := by decide +kernel
  exact ((matCheck_frame_iff _).1 h).resolve_left (by simp [Skipped, crossMat])

theorem crossMat_planar : ∀ f ∈ crossMat.fibers, Planar f := by
  simp [crossMat, Planar]; norm_num

/-- C06-C09 apply to the periodic network, which has five rows. -/
example : (netNew crossMat true).toOption.map (fun n => n.rows.map (fun r => (r.A, r.B, r.sA, r.sB))) =
    some [(0, 0, 5, -5), (0, 1, -3, -1), (0, 2, 3, 0), (1, 1, 4, -4), (2, 2, 5, -5)] := by decide +kernel
/-- In the open box the image is not found. -/
example : (netNew crossMat false).toOption.map (fun n => n.rows.map (fun r => (r.A, r.B, r.sA, r.sB))) =
    some [(0, 0, 5, -5), (0, 1, -3, -1), (1, 1, 4, -4), (2, 2, 5, -5)] := by decide +kernel
/-- C10: a crossing. -/
example : ∃ net, netNew crossMat false = .ok net ∧ ∃ r ∈ net.rows, r.A = 0 ∧ r.B = 1 ∧ r.sA = -3 ∧ r.sB = -1 := by
  obtain ⟨net, hn, -⟩ := C06_netNew_ok crossMat_good false
  exact ⟨net, hn, C10_crossing_is_row crossMat_good crossMat_planar hn (a := 0) (b := 1) (by norm_num) rfl rfl
    (by norm_num [NotParallel]) (by norm_num [CrossAt, abs_lt])⟩
/-- C11: a crossing with the image moved by one box in x. -/
example : ∃ net, netNew crossMat true = .ok net ∧ ∃ r ∈ net.rows, r.A = 0 ∧ r.B = 2 := by
  obtain ⟨net, hn, -⟩ := C06_netNew_ok crossMat_good true
  exact ⟨net, hn, C11_crossing_is_row crossMat_good (S := 20) rfl crossMat_planar (by simp [crossMat]; norm_num) hn
    (a := 0) (b := 2) (i := 1) (j := 0) (s := 3) (t := 0) (by norm_num) rfl rfl
    (by norm_num [NotParallel]) (by norm_num [CrossAt, abs_lt])⟩
/-- C12: the same mat with other heights. -/
example : SameExceptZ crossMat { crossMat with fibers := crossMat.fibers.map (fun f => { f with z := f.z + 1 }) } ∧
    GoodMat { crossMat with fibers := crossMat.fibers.map (fun f => { f with z := f.z + 1 }) } := by
  refine ⟨⟨rfl, by simp [crossMat]⟩, ?_⟩
  have h : matCheck (Mat.frame { crossMat with fibers := crossMat.fibers.map (fun f => { f with z := f.z + 1 }) }) = .ok () := by
    decide +kernel
  exact ((matCheck_frame_iff _).1 h).resolve_left (by simp [Skipped, crossMat])
/-- C13: pairs listed in another order, swapped and repeated. -/
example : PairsInRange crossMat [(0, 1), (2, -1)] ∧ PairsInRange crossMat [(-1, 2), (1, 0), (0, 1)] ∧
    SamePairs [(0, 1), (2, -1)] [(-1, 2), (1, 0), (0, 1)] := by
  refine ⟨by simp [PairsInRange, crossMat], by simp [PairsInRange, crossMat], ?_⟩
  intro i j
  simp only [List.mem_cons, Prod.mk.injEq, List.not_mem_nil, or_false]
  omega

end Fibermat
