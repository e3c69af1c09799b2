import Verif.Lemmas.CoverNet
import Verif.Props.Crossing

/-! Nets and stacks of repeated mats. -/

set_option linter.unusedSectionVars false
set_option linter.unusedSimpArgs false

namespace Fibermat
variable {K : Type} [Field K] [LinearOrder K] [IsStrictOrderedRing K]
open Spec

variable {p : ℕ} {φ : ℕ → ℕ} {cx cy : ℕ → ℤ} {m m' : Mat K}

/-- The rows of a periodic net: ends of fibers and crossings. -/
theorem row_kinds (h : GoodMat m) {S : K} (hS : m.attrs.size = some S) (hp : ∀ f ∈ m.fibers, Planar f)
    {net : Net K} (hn : netNew m true = .ok net) {r : NetRow K} (hr : r ∈ net.rows) :
    ∃ (a b : ℕ) (f g : Fiber K), r.A = (a : Int) ∧ r.B = (b : Int) ∧ m.fibers[a]? = some f ∧ m.fibers[b]? = some g ∧
      r.zA = f.z ∧ r.zB = g.z ∧ ((a = b ∧ r.sA = f.l / 2 ∧ r.sB = -(f.l / 2)) ∨
        (a < b ∧ NotParallel f g ∧ ∃ i j : ℤ, CrossAt S i j f g r.sA r.sB)) := by
  obtain ⟨f, g, ⟨a, b, hA, hB, hfa, hgb⟩, h1, h2, -⟩ := C08_nodes_on_fibers h hn hr
  have hz : r.zA = f.z + r.sA * f.w := congrArg (fun p => p.2.2) h1
  have hz2 : r.zB = g.z + r.sB * g.w := congrArg (fun p => p.2.2) h2
  rw [(hp f (List.mem_of_getElem? hfa)).1, mul_zero, add_zero] at hz
  rw [(hp g (List.mem_of_getElem? hgb)).1, mul_zero, add_zero] at hz2
  refine ⟨a, b, f, g, hA, hB, hfa, hgb, hz, hz2, ?_⟩
  obtain ⟨-, hle, -⟩ := C06_labels h hn r hr
  rcases lt_or_eq_of_le hle with hlt | heq
  · exact Or.inr ⟨by omega, C11_row_is_crossing h hS hp hn hr hlt ⟨a, b, hA, hB, hfa, hgb⟩⟩
  · have hab : a = b := by omega
    subst hab
    obtain ⟨k, q, hq, q1, q2, q3, q4, -, -, hu⟩ := C07_end_row h hn hfa
    obtain ⟨k', hk'⟩ := List.mem_iff_getElem?.1 hr
    have := hu k' r hk' hA hB
    subst this
    rw [hk'] at hq
    cases hq
    exact Or.inl ⟨rfl, q3, q4⟩

/-- Where the copies of two fibers cross. -/
theorem tile_cross {S ox oy : K} {f g : Fiber K} {a b c d i j : ℤ} {s t : K} :
    CrossAt (p * S) i j { f with x := f.x + a * S + ox, y := f.y + b * S + oy } { g with x := g.x + c * S + ox, y := g.y + d * S + oy } s t ↔
      CrossAt S (c - a + p * i) (d - b + p * j) f g s t := by
  unfold CrossAt
  refine and_congr Iff.rfl (and_congr Iff.rfl (and_congr ?_ ?_))
  · simp only []
    push_cast
    constructor <;> intro h <;> linear_combination h
  · simp only []
    push_cast
    constructor <;> intro h <;> linear_combination h

theorem Spec.Tiling.get (T : Tiling p φ cx cy m m') {S : K} (hS : m.attrs.size = some S) : ∃ ox oy : K, ∀ (i : ℕ) (f' : Fiber K),
    m'.fibers[i]? = some f' → ∃ f, m.fibers[φ i]? = some f ∧ f' = { f with x := f.x + cx i * S + ox, y := f.y + cy i * S + oy } := by
  obtain ⟨S', h1, -, h⟩ := T.size
  rw [hS] at h1; cases h1
  exact h

theorem Spec.Tiling.size' (T : Tiling p φ cx cy m m') {S : K} (hS : m.attrs.size = some S) : m'.attrs.size = some (p * S) := by
  obtain ⟨S', h1, h, -⟩ := T.size
  rw [hS] at h1; cases h1
  exact h

/-- A tiling copies the fibers. -/
theorem Spec.Tiling.cover (T : Tiling p φ cx cy m m') : CoverMat φ m m' := by
  obtain ⟨S, hS, -, ox, oy, h⟩ := T.size
  refine ⟨?_, ?_, ?_⟩
  · intro i hi
    obtain ⟨f, hf, -⟩ := h i _ (List.getElem?_eq_getElem hi)
    exact (List.getElem?_eq_some_iff.1 hf).1
  · intro k hk
    obtain ⟨i, ⟨h1, h2, -⟩, -⟩ := T.once k hk 0 0
    exact ⟨i, h1, h2⟩
  · intro i f' hi
    obtain ⟨f, hf, rfl⟩ := h i f' hi
    exact ⟨f, hf, rfl, rfl, rfl, rfl, rfl, rfl, rfl⟩

theorem Spec.Tiling.planar (T : Tiling p φ cx cy m m') (hp : ∀ f ∈ m.fibers, Planar f) : ∀ f ∈ m'.fibers, Planar f := by
  obtain ⟨S, hS, -, ox, oy, h⟩ := T.size
  intro f' hf'
  obtain ⟨i, hi⟩ := List.mem_iff_getElem?.1 hf'
  obtain ⟨f, hf, rfl⟩ := h i f' hi
  exact hp f (List.mem_of_getElem? hf)

theorem Spec.Tiling.short (T : Tiling p φ cx cy m m') {S : K} (hS : m.attrs.size = some S) (h : GoodMat m)
    (hlen : ∀ f ∈ m.fibers, f.l ≤ S / 2) : ∀ f ∈ m'.fibers, f.l ≤ p * S / 2 := by
  obtain ⟨ox, oy, hT⟩ := T.get hS
  intro f' hf'
  obtain ⟨i, hi⟩ := List.mem_iff_getElem?.1 hf'
  obtain ⟨f, hf, rfl⟩ := hT i f' hi
  have hm := List.mem_of_getElem? hf
  have h1 := hlen f hm
  obtain ⟨S', e, hg⟩ := h.size
  rw [hS] at e; cases e
  have h2 := (hg f hm).x1
  have h3 := (hg f hm).x2
  have hp : (1 : K) ≤ p := by exact_mod_cast T.pos
  have : S ≤ p * S := by nlinarith
  show f.l ≤ _
  linarith

/-- The net of a repeated mat repeats the net of the mat, provided fibers are no longer than half the box. -/
theorem tile_net (T : Tiling p φ cx cy m m') (h : GoodMat m) (h' : GoodMat m') {S : K} (hS : m.attrs.size = some S)
    (hp : ∀ f ∈ m.fibers, Planar f) (hlen : ∀ f ∈ m.fibers, f.l ≤ S / 2) {net net' : Net K} (hn : netNew m true = .ok net)
    (hn' : netNew m' true = .ok net') : ∃ κ, CoverNet φ m'.fibers.length net.rows net'.rows κ := by
  classical
  have hS' := T.size' hS
  have hp' := T.planar hp
  have hlen' := T.short hS h hlen
  have hcov := T.cover
  obtain ⟨ox, oy, hget⟩ := T.get hS
  have hinc := C06_increasing h hn
  have hinc' := C06_increasing h' hn'
  -- every row is a copy
  have hex : ∀ (k : ℕ), k < net'.rows.length → ∃ κ : ℕ, ∀ r', net'.rows[k]? = some r' → ∃ r, net.rows[κ]? = some r ∧ CopyRow φ r r' := by
    intro k hk
    have hk' : net'.rows[k]? = some net'.rows[k] := List.getElem?_eq_getElem hk
    generalize net'.rows[k] = r' at hk'
    obtain ⟨a, b, f', g', hA, hB, hfa, hgb, hzA, hzB, hc⟩ := row_kinds h' hS' hp' hn' (List.mem_of_getElem? hk')
    obtain ⟨f, hf, rfl⟩ := hget a f' hfa
    obtain ⟨g, hg, rfl⟩ := hget b g' hgb
    rcases hc with ⟨rfl, hsA, hsB⟩ | ⟨hab, hnp, i, j, hcr⟩
    · obtain ⟨k0, q, hq, q1, q2, q3, q4, -⟩ := C07_end_row h hn hf
      obtain ⟨a2, b2, f2, g2, hA2, hB2, hf2, hg2, hzA2, hzB2, -⟩ := row_kinds h hS hp hn (List.mem_of_getElem? hq)
      have ea : a2 = φ a := by omega
      have eb : b2 = φ a := by omega
      subst ea
      rw [eb, hf] at hg2
      rw [hf] at hf2 hg
      cases hf2; cases hg; cases hg2
      refine ⟨k0, fun r2 hr2 => ⟨q, hq, ?_⟩⟩
      rw [hk'] at hr2; cases hr2
      exact ⟨by rw [hA, Int.toNat_natCast]; exact q1, by rw [hB, Int.toNat_natCast]; exact q2, by omega, by rw [hsA, q3], by rw [hsB, q4],
        by rw [hzA, hzA2], by rw [hzB, hzB2]⟩
    · have hnp' : NotParallel f g := hnp
      have hne : φ a ≠ φ b := by
        intro e
        rw [e, hg] at hf
        cases hf
        apply hnp'
        ring
      have hlt : φ a < φ b := by
        have := T.order a b hab.le (List.getElem?_eq_some_iff.1 hgb).1
        omega
      obtain ⟨q, hq, q1, q2, q3, q4⟩ := (C79_rows_are_crossings h hS hp hlen hn hlt hf hg r'.sA r'.sB).2 ⟨hnp', _, _, tile_cross.1 hcr⟩
      obtain ⟨k0, hk0⟩ := List.mem_iff_getElem?.1 hq
      obtain ⟨a2, b2, f2, g2, hA2, hB2, hf2, hg2, hzA2, hzB2, -⟩ := row_kinds h hS hp hn hq
      have ea : a2 = φ a := by omega
      have eb : b2 = φ b := by omega
      subst ea eb
      rw [hf] at hf2
      rw [hg] at hg2
      cases hf2; cases hg2
      refine ⟨k0, fun r2 hr2 => ⟨q, hk0, ?_⟩⟩
      rw [hk'] at hr2; cases hr2
      exact ⟨by rw [hA, Int.toNat_natCast]; exact q1, by rw [hB, Int.toNat_natCast]; exact q2, by omega, q3.symm, q4.symm, by rw [hzA, hzA2],
        by rw [hzB, hzB2]⟩
  choose! κ hκ using hex
  have hκ : ∀ (k : ℕ) (r' : NetRow K), net'.rows[k]? = some r' → ∃ r, net.rows[κ k]? = some r ∧ CopyRow φ r r' := fun k r' hk =>
    hκ k (List.getElem?_eq_some_iff.1 hk).1 r' hk
  -- a copy of a row is sent to it
  have hpin : ∀ (k k' a b : ℕ) (r r' : NetRow K), net.rows[k]? = some r → net'.rows[k']? = some r' → r'.A = (a : Int) → r'.B = (b : Int) →
      r.A = (φ a : Int) → r.B = (φ b : Int) → κ k' = k := by
    intro k k' a b r r' hk hk' e1 e2 e3 e4
    obtain ⟨q, hq, hc⟩ := hκ k' r' hk'
    exact row_unique hinc hq hk (by rw [hc.A, e1, e3, Int.toNat_natCast]) (by rw [hc.B, e2, e4, Int.toNat_natCast])
  have hends : ∀ (k a : ℕ) (r : NetRow K), net.rows[k]? = some r → a < m'.fibers.length → r.A = (φ a : Int) → r.B = (φ a : Int) →
      ∃ (k' : ℕ) (r' : NetRow K), net'.rows[k']? = some r' ∧ κ k' = k ∧ r'.A = (a : Int) ∧ r'.B = (a : Int) := by
    intro k a r hk ha e1 e2
    obtain ⟨k', q, hq, q1, q2, -⟩ := C07_end_row h' hn' (List.getElem?_eq_getElem ha)
    exact ⟨k', q, hq, hpin k k' a a r q hk hq q1 q2 e1 e2, q1, q2⟩
  have hcross : ∀ (k a b : ℕ) (r : NetRow K) (f g : Fiber K) (i j i' j' : ℤ), net.rows[k]? = some r → a < m'.fibers.length →
      b < m'.fibers.length → r.A = (φ a : Int) → r.B = (φ b : Int) → r.A < r.B → m.fibers[φ a]? = some f → m.fibers[φ b]? = some g →
      NotParallel f g → CrossAt S i j f g r.sA r.sB → i = cx b - cx a + p * i' → j = cy b - cy a + p * j' →
      ∃ (k' : ℕ) (r' : NetRow K), net'.rows[k']? = some r' ∧ κ k' = k ∧ r'.A = (a : Int) ∧ r'.B = (b : Int) := by
    intro k a b r f g i j i' j' hk ha hb e1 e2 hlt hf hg hnp hc ei ej
    have hab : a < b := by
      by_contra hcon
      have := T.order b a (by omega) ha
      omega
    obtain ⟨f2, hf2, ef⟩ := hget a _ (List.getElem?_eq_getElem ha)
    obtain ⟨g2, hg2, eg⟩ := hget b _ (List.getElem?_eq_getElem hb)
    rw [hf] at hf2; cases hf2
    rw [hg] at hg2; cases hg2
    obtain ⟨q, hq, q1, q2, -⟩ := (C79_rows_are_crossings h' hS' hp' hlen' hn' hab (List.getElem?_eq_getElem ha)
      (List.getElem?_eq_getElem hb) r.sA r.sB).2 ⟨by rw [ef, eg]; exact hnp, i', j', by
        rw [ef, eg, tile_cross, ← ei, ← ej]; exact hc⟩
    obtain ⟨k', hk'⟩ := List.mem_iff_getElem?.1 hq
    exact ⟨k', q, hk', hpin k k' a b r q hk hk' q1 q2 e1 e2, q1, q2⟩
  -- two copies of a row with a common fiber
  have hboth : ∀ (j k : ℕ) (r q : NetRow K), net'.rows[j]? = some r → net'.rows[k]? = some q → κ j = κ k → (r.A = q.A ∨ r.B = q.B) → j = k := by
    intro j k r q hj hk e hor
    obtain ⟨r0, hr0, c1⟩ := hκ j r hj
    obtain ⟨q0, hq0, c2⟩ := hκ k q hk
    rw [e, hq0] at hr0; cases hr0
    obtain ⟨a, b, f', g', hA, hB, hfa, hgb, -, -, h1⟩ := row_kinds h' hS' hp' hn' (List.mem_of_getElem? hj)
    obtain ⟨a2, b2, f2', g2', hA2, hB2, hfa2, hgb2, -, -, h2⟩ := row_kinds h' hS' hp' hn' (List.mem_of_getElem? hk)
    have eA : φ a = φ a2 := by
      have x1 := c1.A
      have x2 := c2.A
      rw [hA, Int.toNat_natCast] at x1
      rw [hA2, Int.toNat_natCast] at x2
      omega
    have eB : φ b = φ b2 := by
      have x1 := c1.B
      have x2 := c2.B
      rw [hB, Int.toNat_natCast] at x1
      rw [hB2, Int.toNat_natCast] at x2
      omega
    have hl : a < b ↔ a2 < b2 := by
      have x1 := c1.less
      have x2 := c2.less
      rw [hA, hB] at x1
      rw [hA2, hB2] at x2
      omega
    have la := (List.getElem?_eq_some_iff.1 hfa).1
    have lb := (List.getElem?_eq_some_iff.1 hgb).1
    have la2 := (List.getElem?_eq_some_iff.1 hfa2).1
    have lb2 := (List.getElem?_eq_some_iff.1 hgb2).1
    have key : a = a2 ∧ b = b2 := by
      rcases h1 with ⟨rfl, -⟩ | ⟨hab, hnp, i, j, hcr⟩
      · rcases h2 with ⟨rfl, -⟩ | ⟨hab2, -⟩
        · omega
        · omega
      · rcases h2 with ⟨rfl, -⟩ | ⟨hab2, hnp2, i2, j2, hcr2⟩
        · omega
        · obtain ⟨f, hf, rfl⟩ := hget a f' hfa
          obtain ⟨g, hg, rfl⟩ := hget b g' hgb
          obtain ⟨f2, hf2, rfl⟩ := hget a2 f2' hfa2
          obtain ⟨g2, hg2, rfl⟩ := hget b2 g2' hgb2
          rw [eA, hf2] at hf; cases hf
          rw [eB, hg2] at hg; cases hg
          have x1 := tile_cross.1 hcr
          have x2 := tile_cross.1 hcr2
          have hls : f.l + g.l ≤ S := by
            have := hlen f (List.mem_of_getElem? hf2)
            have := hlen g (List.mem_of_getElem? hg2)
            linarith
          obtain ⟨y1, y2, -⟩ := C79_unique (hp f (List.mem_of_getElem? hf2)) (hp g (List.mem_of_getElem? hg2)) hls hnp x1 x2
          rcases hor with e | e
          · have haa : a = a2 := by omega
            subst haa
            refine ⟨rfl, ?_⟩
            obtain ⟨i0, -, hu⟩ := T.once (φ b) (hcov.lt b lb) (cx b) (cy b)
            rw [hu b lb rfl ⟨0, by ring⟩ ⟨0, by ring⟩, hu b2 lb2 eB.symm ⟨i - i2, by linear_combination -y1⟩ ⟨j - j2, by linear_combination -y2⟩]
          · have hbb : b = b2 := by omega
            subst hbb
            refine ⟨?_, rfl⟩
            obtain ⟨i0, -, hu⟩ := T.once (φ a) (hcov.lt a la) (cx a) (cy a)
            rw [hu a la rfl ⟨0, by ring⟩ ⟨0, by ring⟩, hu a2 la2 eA.symm ⟨i2 - i, by linear_combination y1⟩ ⟨j2 - j, by linear_combination y2⟩]
    exact row_unique hinc' hj hk (by omega) (by omega)
  refine ⟨κ, hκ, ?_, ?_, fun j k r q hj hk e ea => hboth j k r q hj hk e (Or.inl ea), fun j k r q hj hk e ea => hboth j k r q hj hk e (Or.inr ea)⟩
  · intro k a r hk ha e
    obtain ⟨x, y, f, g, hA, hB, hf, hg, -, -, hc⟩ := row_kinds h hS hp hn (List.mem_of_getElem? hk)
    have hx : x = φ a := by omega
    subst hx
    rcases hc with ⟨rfl, -⟩ | ⟨hab, hnp, i, j, hcr⟩
    · obtain ⟨k', r', e1, e2, e3, -⟩ := hends k a r hk ha hA hB
      exact ⟨k', r', e1, e2, e3⟩
    · obtain ⟨b, ⟨lb, rfl, ⟨i', hi⟩, ⟨j', hj⟩⟩, -⟩ := T.once y (List.getElem?_eq_some_iff.1 hg).1 (cx a + i) (cy a + j)
      obtain ⟨k', r', e1, e2, e3, -⟩ := hcross k a b r f g i j (-i') (-j') hk ha lb hA hB (by omega) hf hg hnp hcr
        (by linear_combination -hi) (by linear_combination -hj)
      exact ⟨k', r', e1, e2, e3⟩
  · intro k b r hk hb e
    obtain ⟨x, y, f, g, hA, hB, hf, hg, -, -, hc⟩ := row_kinds h hS hp hn (List.mem_of_getElem? hk)
    have hy : y = φ b := by omega
    subst hy
    rcases hc with ⟨rfl, -⟩ | ⟨hab, hnp, i, j, hcr⟩
    · obtain ⟨k', r', e1, e2, -, e3⟩ := hends k b r hk hb hA hB
      exact ⟨k', r', e1, e2, e3⟩
    · obtain ⟨a, ⟨la, rfl, ⟨i', hi⟩, ⟨j', hj⟩⟩, -⟩ := T.once x (List.getElem?_eq_some_iff.1 hf).1 (cx b - i) (cy b - j)
      obtain ⟨k', r', e1, e2, -, e3⟩ := hcross k a b r f g i j i' j' hk la hb hA hB (by omega) hf hg hnp hcr
        (by linear_combination hi) (by linear_combination hj)
      exact ⟨k', r', e1, e2, e3⟩

/-- Heights given to the copies. -/
theorem Spec.Tiling.setZ (T : Tiling p φ cx cy m m') {z z' : List K} (hl : z.length = m.fibers.length) (hl' : z'.length = m'.fibers.length)
    (hz : ∀ i, i < m'.fibers.length → comp z' i = comp z (φ i)) : Tiling p φ cx cy (m.setZ z) (m'.setZ z') := by
  obtain ⟨S, hS, hS', ox, oy, hT⟩ := T.size
  refine ⟨T.pos, ⟨S, hS, hS', ox, oy, ?_⟩, ?_, ?_⟩
  · intro i f' hi
    have hlt : i < m'.fibers.length := by
      have := (List.getElem?_eq_some_iff.1 hi).1
      rwa [setZ_length hl'] at this
    rw [setZ_get hl' (List.getElem?_eq_getElem hlt)] at hi
    obtain ⟨f, hf, e⟩ := hT i _ (List.getElem?_eq_getElem hlt)
    refine ⟨_, setZ_get hl hf, ?_⟩
    cases hi
    rw [e, hz i hlt]
  · rw [setZ_length hl']; exact T.order
  · rw [setZ_length hl', setZ_length hl]; exact T.once

/-- The stack of a repeated mat repeats the stack of the mat. -/
theorem tile_stack {lp lp' : Linprog K} (hlp : GoodLinprog lp) (hlp' : GoodLinprog lp') (T : Tiling p φ cx cy m m') (h : GoodMat m)
    (h' : GoodMat m') {S : K} (hS : m.attrs.size = some S)
    (hp : ∀ f ∈ m.fibers, Planar f) (hlen : ∀ f ∈ m.fibers, f.l ≤ S / 2) {net net' : Net K} (hn : netNew m true = .ok net)
    (hn' : netNew m' true = .ok net') {threshold : Option K} {m1 m1' : Mat K} {st st' : Net K}
    (hst : stackNew lp m net threshold = .ok (m1, st)) (hst' : stackNew lp' m' net' threshold = .ok (m1', st')) :
    ∃ κ, Tiling p φ cx cy m1 m1' ∧ CoverNet φ m1'.fibers.length st.rows st'.rows κ ∧ OverMat m1 st.rows ∧ OverMat m1' st'.rows := by
  obtain ⟨hck, ho, hper⟩ := netNew_over h hn
  obtain ⟨hck', ho', hper'⟩ := netNew_over h' hn'
  obtain ⟨z, hz, hlow, hcase⟩ := stackNew_good hlp h hck ho threshold
  obtain ⟨z', hz', hlow', hcase'⟩ := stackNew_good hlp' h' hck' ho' threshold
  obtain ⟨κ, hκ⟩ := tile_net T h h' hS hp hlen hn hn'
  have hcov := T.cover
  have hemp : m'.fibers = [] ↔ m.fibers = [] := by
    constructor
    · intro e
      rw [← List.length_eq_zero_iff] at e ⊢
      by_contra hne
      obtain ⟨i, hi, -⟩ := hcov.surj 0 (by omega)
      omega
    · intro e
      rw [← List.length_eq_zero_iff] at e ⊢
      by_contra hne
      have := hcov.lt 0 (by omega)
      omega
  rcases hcase with ⟨he, -, e⟩ | ⟨hne, net1, g1, e⟩
  · rw [hst] at e
    cases e
    rcases hcase' with ⟨-, -, e'⟩ | ⟨hne', -⟩
    · rw [hst'] at e'
      cases e'
      exact ⟨κ, T, hκ, ho, ho'⟩
    · exact absurd (hemp.2 he) hne'
  · rcases hcase' with ⟨he', -⟩ | ⟨-, net1', g1', e'⟩
    · exact absurd (hemp.1 he') hne
    · rw [hst] at e
      rw [hst'] at e'
      cases e; cases e'
      have hzz := cover_lowest hcov hκ ho ho' hlow hlow'
      have T1 := T.setZ hz hz' hzz
      rw [hper'] at g1'
      rw [hper] at g1
      have g1 : netNew (m.setZ z) true = .ok net1 := g1
      have g1' : netNew (m'.setZ z') true = .ok net1' := g1'
      have hgood1 := setZ_good h hz
      have hgood1' := setZ_good h' hz'
      have hfib : ∀ f ∈ (m.setZ z).fibers, Planar f ∧ f.l ≤ S / 2 := by
        intro f hf
        obtain ⟨i, hi⟩ := List.mem_iff_getElem?.1 hf
        have hlt : i < m.fibers.length := by
          have := (List.getElem?_eq_some_iff.1 hi).1
          rwa [setZ_length hz] at this
        rw [setZ_get hz (List.getElem?_eq_getElem hlt)] at hi
        cases hi
        have hmem := List.getElem_mem hlt
        exact ⟨hp m.fibers[i] hmem, hlen m.fibers[i] hmem⟩
      obtain ⟨κ1, hκ1⟩ := tile_net T1 hgood1 hgood1' hS (fun f hf => (hfib f hf).1) (fun f hf => (hfib f hf).2) g1 g1'
      have hov := C06_labels hgood1 g1
      have hov' := C06_labels hgood1' g1'
      obtain ⟨κ2, hκ2⟩ := cover_keep threshold hκ1 hov hov'
      refine ⟨κ2, T1, hκ2, ?_, ?_⟩
      · intro r hr
        cases threshold with
        | none => exact hov r hr
        | some t => exact hov r (List.mem_filter.1 hr).1
      · intro r hr
        cases threshold with
        | none => exact hov' r hr
        | some t => exact hov' r (List.mem_filter.1 hr).1

/-! ### A repeated mat -/

/-- Items of blocks of the same length. -/
theorem flatMap_get {α β : Type} {c : ℕ} (hc : 0 < c) {g : α → List β} (l : List α) (hg : ∀ a ∈ l, (g a).length = c) (i : ℕ) :
    (l.flatMap g)[i]? = (l[i / c]?).bind (fun a => (g a)[i % c]?) := by
  induction l generalizing i with
  | nil => simp
  | cons a l ih =>
    rw [List.flatMap_cons]
    have ha := hg a (by simp)
    by_cases hi : i < c
    · rw [List.getElem?_append_left (by omega), Nat.div_eq_of_lt hi, Nat.mod_eq_of_lt hi]
      rfl
    · rw [List.getElem?_append_right (by omega), ha, ih (fun b hb => hg b (by simp [hb]))]
      obtain ⟨j, rfl⟩ : ∃ j, i = j + c := ⟨i - c, by omega⟩
      rw [Nat.add_sub_cancel, Nat.add_div_right j hc, Nat.add_mod_right]
      rfl

/-- Fiber `i` of a repeated mat. -/
theorem tile_get (hp : 0 < p) (m : Mat K) (i : ℕ) : (tile p m).fibers[i]? = (m.fibers[i / (p * p)]?).map (fun f =>
    { f with x := f.x + (((i % (p * p) / p : ℕ) : K) - ((p : K) - 1) / 2) * m.attrs.size.getD 0,
             y := f.y + (((i % (p * p) % p : ℕ) : K) - ((p : K) - 1) / 2) * m.attrs.size.getD 0 }) := by
  have hpp : 0 < p * p := Nat.mul_pos hp hp
  have hblock : ∀ f : Fiber K, ∀ k, ((List.range p).flatMap (fun a : ℕ => (List.range p).map (fun b : ℕ =>
      ({ f with x := f.x + ((a : K) - ((p : K) - 1) / 2) * m.attrs.size.getD 0, y := f.y + ((b : K) - ((p : K) - 1) / 2) * m.attrs.size.getD 0 }
        : Fiber K))))[k]? = if k < p * p then some ({ f with
          x := f.x + (((k / p : ℕ) : K) - ((p : K) - 1) / 2) * m.attrs.size.getD 0,
          y := f.y + (((k % p : ℕ) : K) - ((p : K) - 1) / 2) * m.attrs.size.getD 0 } : Fiber K) else none := by
    intro f k
    rw [flatMap_get hp _ (by intro a _; simp)]
    by_cases hk : k < p * p
    · have h1 : k / p < p := Nat.div_lt_of_lt_mul hk
      have h2 : k % p < p := Nat.mod_lt _ hp
      rw [if_pos hk, List.getElem?_range h1]
      simp only [Option.bind_some, List.getElem?_map, List.getElem?_range h2, Option.map_some]
    · have h1 : p ≤ k / p := (Nat.le_div_iff_mul_le hp).2 (by omega)
      rw [if_neg hk, List.getElem?_eq_none (by rw [List.length_range]; exact h1)]
      rfl
  unfold tile
  simp only []
  rw [flatMap_get hpp m.fibers (by
    intro f _
    simp [List.length_flatMap, List.map_const'])]
  cases m.fibers[i / (p * p)]? with
  | none => rfl
  | some f =>
    simp only [Option.bind_some, Option.map_some]
    rw [hblock f, if_pos (Nat.mod_lt _ hpp)]

theorem tile_length (p : ℕ) (m : Mat K) : (tile p m).fibers.length = m.fibers.length * (p * p) := by
  unfold tile
  simp [List.length_flatMap, List.map_const']

/-- A repeated mat is a tiling. -/
theorem tile_tiling (hp : 0 < p) {S : K} (hS : m.attrs.size = some S) :
    Tiling p (fun i => i / (p * p)) (fun i => ((i % (p * p) / p : ℕ) : ℤ)) (fun i => ((i % (p * p) % p : ℕ) : ℤ)) m (tile p m) := by
  have hpp : 0 < p * p := Nat.mul_pos hp hp
  refine ⟨hp, ⟨S, hS, ?_, -(((p : K) - 1) / 2 * S), -(((p : K) - 1) / 2 * S), ?_⟩, ?_, ?_⟩
  · simp [tile, hS]
  · intro i f' hi
    rw [tile_get hp, Option.map_eq_some_iff] at hi
    obtain ⟨f, hf, rfl⟩ := hi
    refine ⟨f, hf, ?_⟩
    rw [hS, Option.getD_some]
    congr 1
    · rw [Int.cast_natCast]; ring
    · rw [Int.cast_natCast]; ring
  · intro i j hij _
    exact Nat.div_le_div_right hij
  · intro k hk a b
    have hpz : (0 : ℤ) < p := by exact_mod_cast hp
    obtain ⟨a', ha⟩ := Int.eq_ofNat_of_zero_le (Int.emod_nonneg a hpz.ne')
    obtain ⟨b', hb⟩ := Int.eq_ofNat_of_zero_le (Int.emod_nonneg b hpz.ne')
    have ha2 : a' < p := by have := Int.emod_lt_of_pos a hpz; omega
    have hb2 : b' < p := by have := Int.emod_lt_of_pos b hpz; omega
    have hlt : a' * p + b' < p * p := by nlinarith
    have d1 : (k * (p * p) + (a' * p + b')) / (p * p) = k := by
      rw [mul_comm, Nat.mul_add_div hpp, Nat.div_eq_of_lt hlt, Nat.add_zero]
    have d2 : (k * (p * p) + (a' * p + b')) % (p * p) = a' * p + b' := by
      rw [mul_comm, Nat.mul_add_mod, Nat.mod_eq_of_lt hlt]
    have d3 : (a' * p + b') / p = a' := by
      rw [mul_comm, Nat.mul_add_div hp, Nat.div_eq_of_lt hb2, Nat.add_zero]
    have d4 : (a' * p + b') % p = b' := by
      rw [mul_comm, Nat.mul_add_mod, Nat.mod_eq_of_lt hb2]
    have same : ∀ (c : ℤ) (c' d : ℕ), c % p = c' → d < p → (p : ℤ) ∣ (d : ℤ) - c → d = c' := by
      intro c c' d hc hd hdv
      have h1 : (d : ℤ) % p = c % p := Int.emod_eq_emod_iff_emod_sub_eq_zero.2 (Int.emod_eq_zero_of_dvd hdv)
      rw [hc, Int.emod_eq_of_lt (by omega) (by omega)] at h1
      exact_mod_cast h1
    refine ⟨k * (p * p) + (a' * p + b'), ⟨?_, d1, ?_, ?_⟩, ?_⟩
    · rw [tile_length]
      calc k * (p * p) + (a' * p + b') < k * (p * p) + p * p := by omega
        _ = (k + 1) * (p * p) := by ring
        _ ≤ m.fibers.length * (p * p) := Nat.mul_le_mul_right _ hk
    · show (p : ℤ) ∣ _
      rw [d2, d3]
      exact ⟨-(a / p), by have := Int.emod_add_mul_ediv a p; linear_combination this - ha⟩
    · show (p : ℤ) ∣ _
      rw [d2, d4]
      exact ⟨-(b / p), by have := Int.emod_add_mul_ediv b p; linear_combination this - hb⟩
    · intro j hj hk' h1 h2
      have hjm : j % (p * p) < p * p := Nat.mod_lt _ hpp
      have e1 := same a a' _ ha (Nat.div_lt_of_lt_mul hjm) h1
      have e2 := same b b' _ hb (Nat.mod_lt _ hp) h2
      have e3 : p * (j % (p * p) / p) + j % (p * p) % p = j % (p * p) := Nat.div_add_mod _ _
      have e4 : p * p * (j / (p * p)) + j % (p * p) = j := Nat.div_add_mod _ _
      have hk' : j / (p * p) = k := hk'
      rw [e1, e2] at e3
      rw [hk', ← e3] at e4
      rw [← e4]
      ring

/-- A repeated mat is a mat. -/
theorem tile_good (hp : 0 < p) (h : GoodMat m) : GoodMat (tile p m) := by
  obtain ⟨S, hS, hg⟩ := h.size
  refine ⟨?_, p * S, by simp [tile, hS], ?_⟩
  · rw [tile_length]
    simp [tile, h.n]
  · intro f' hf'
    obtain ⟨i, hi⟩ := List.mem_iff_getElem?.1 hf'
    rw [tile_get hp, Option.map_eq_some_iff] at hi
    obtain ⟨f, hf, rfl⟩ := hi
    have g := hg f (List.mem_of_getElem? hf)
    have hpp : 0 < p * p := Nat.mul_pos hp hp
    have h1 : i % (p * p) / p < p := Nat.div_lt_of_lt_mul (Nat.mod_lt _ hpp)
    have h2 : i % (p * p) % p < p := Nat.mod_lt _ hp
    generalize i % (p * p) / p = a at h1
    generalize i % (p * p) % p = b at h2
    rw [hS, Option.getD_some]
    have hS0 : 0 ≤ S := by have := g.x1; have := g.x2; linarith
    have c1 : (a : K) ≤ (p : K) - 1 := by
      have : ((a + 1 : ℕ) : K) ≤ p := by exact_mod_cast h1
      push_cast at this; linarith
    have c2 : (b : K) ≤ (p : K) - 1 := by
      have : ((b + 1 : ℕ) : K) ≤ p := by exact_mod_cast h2
      push_cast at this; linarith
    have c3 : (0 : K) ≤ a := Nat.cast_nonneg a
    have c4 : (0 : K) ≤ b := Nat.cast_nonneg b
    have m1 := mul_le_mul_of_nonneg_right c1 hS0
    have m2 := mul_le_mul_of_nonneg_right c2 hS0
    have m3 := mul_nonneg c3 hS0
    have m4 := mul_nonneg c4 hS0
    have x1 := g.x1
    have x2 := g.x2
    have y1 := g.y1
    have y2 := g.y2
    refine ⟨g.l, g.b, g.h, ?_, ?_, ?_, ?_, g.dir1, g.dir2, g.G, g.E⟩
    · show _ ≤ f.x + _
      nlinarith
    · show f.x + _ ≤ _
      nlinarith
    · show _ ≤ f.y + _
      nlinarith
    · show f.y + _ ≤ _
      nlinarith

end Fibermat
