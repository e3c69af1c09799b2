import Verif.Spec.Kept
import Verif.Lemmas.Kept
import Verif.Props.Stack
import Verif.Props.Pipeline

/-! # C112: fibers added to or removed from a mat -/

set_option linter.unusedSectionVars false
set_option linter.unusedSimpArgs false

namespace Fibermat
open Spec
variable {K : Type} [Field K] [LinearOrder K] [IsStrictOrderedRing K]

theorem isKept_iff {φ : ℕ → ℕ} {k : ℕ} {i : Int} : isKept φ k i = true ↔ ∃ j, j < k ∧ (φ j : Int) = i := by
  unfold isKept
  simp [List.any_eq_true]

section
variable {φ : ℕ → ℕ} {m m' : Mat K}

theorem Spec.KeptMat.inj (h : KeptMat φ m m') {i j : ℕ} (hi : i < m'.fibers.length) (hj : j < m'.fibers.length) (e : φ i = φ j) : i = j := by
  rcases lt_trichotomy i j with hlt | rfl | hlt
  · have := h.mono i j hlt hj; omega
  · rfl
  · have := h.mono j i hlt hi; omega

theorem Spec.KeptMat.good (h : KeptMat φ m m') (hm : GoodMat m) : GoodMat m' := by
  obtain ⟨S, hS, hf⟩ := hm.size
  refine ⟨by rw [h.attrs], S, by rw [h.attrs]; exact hS, ?_⟩
  intro f hf'
  obtain ⟨i, hi⟩ := List.mem_iff_getElem?.1 hf'
  obtain ⟨g, hg, hg'⟩ := h.fiber i (List.getElem?_eq_some_iff.1 hi).1
  rw [hi] at hg
  cases hg
  exact hf f (List.mem_of_getElem? hg')

theorem Spec.KeptMat.mem_cands (h : KeptMat φ m m') {S : K} (hg : ∀ f ∈ m'.fibers, GoodFiber S f) (periodic : Bool) {c : Cand K}
    (hle : c.A ≤ c.B) (hB : c.B < m'.fibers.length) :
    relabelCand φ c ∈ netCands periodic S m.fibers ↔ c ∈ netCands periodic S m'.fibers := by
  obtain ⟨f, hf, hf'⟩ := h.fiber c.A (by omega)
  obtain ⟨g, hg1, hg'⟩ := h.fiber c.B hB
  have hh := head_kept (fs := m.fibers) (gs := m'.fibers) hg periodic hle (fun hlt => h.mono _ _ hlt hB) hf hg1 hf' hg'
  unfold netCands
  rw [mem_sortDedup, mem_sortDedup]
  have e1 : candKey (relabelCand φ c) = (φ c.A, φ c.B) := rfl
  have e2 : candKey c = (c.A, c.B) := rfl
  rw [e1, e2]
  unfold labelCands at hh
  rw [hh]
  constructor
  · intro he
    obtain ⟨d, hd, hdc⟩ := Option.map_eq_some_iff.1 he
    have hk := (List.mem_filter.1 (List.mem_of_mem_head? hd)).2
    simp only [decide_eq_true_eq, candKey, Prod.mk.injEq] at hk
    rw [hd]
    simp only [relabelCand, Cand.mk.injEq] at hdc
    cases d; cases c
    simp_all
  · intro he
    rw [he]; rfl

theorem netRow_kept (h : KeptMat φ m m') {c : Cand K} (hA : c.A < m'.fibers.length) (hB : c.B < m'.fibers.length) :
    netRow m.fibers (relabelCand φ c) = relabelRow φ (netRow m'.fibers c) := by
  obtain ⟨f, hf, hf'⟩ := h.fiber c.A hA
  obtain ⟨g, hg, hg'⟩ := h.fiber c.B hB
  simp only [netRow, relabelCand, relabelRow, List.getD_eq_getElem?_getD, hf, hf', hg, hg', Option.getD_some, Int.toNat_natCast]

/-- C112: the connections of the fibers that are kept are those they have in the whole mat: whether and where two fibers are connected
does not depend on the other fibers. -/
theorem C112_net (h : KeptMat φ m m') (hm : GoodMat m) {periodic : Bool} {net : Net K} (hn : netNew m periodic = .ok net) :
    ∃ net', netNew m' periodic = .ok net' ∧ net'.rows.map (relabelRow φ) = keptRows φ m'.fibers.length net.rows := by
  have hm' := h.good hm
  obtain ⟨net', hn', -⟩ := C06_netNew_ok hm' periodic
  refine ⟨net', hn', ?_⟩
  have hinc := C06_increasing hm hn
  have hinc' := C06_increasing hm' hn'
  have hlab' := C06_labels hm' hn'
  obtain ⟨S, hS, hgood, rfl⟩ := netNew_ok hm hn
  obtain ⟨S', hS', hgood', rfl⟩ := netNew_ok hm' hn'
  have eS : S' = S := by
    rw [h.attrs] at hS'
    simp only at hS'
    rw [hS] at hS'
    exact (Option.some.inj hS').symm
  subst eS
  let lt : NetRow K → NetRow K → Prop := fun p q => p.A < q.A ∨ (p.A = q.A ∧ p.B < q.B)
  have : Std.Irrefl lt := ⟨fun a => by simp only [lt]; omega⟩
  have : Std.Antisymm lt := ⟨fun a b h1 h2 => by simp only [lt] at *; omega⟩
  have mono : ∀ i j : Int, 0 ≤ i → i < j → j < (m'.fibers.length : Int) → φ i.toNat < φ j.toNat := by
    intro i j h0 hij hj
    exact h.mono _ _ (by omega) (by omega)
  refine List.Pairwise.eq_of_mem_iff (r := lt) ?_ ?_ ?_
  · rw [List.pairwise_map]
    refine hinc'.imp_of_mem ?_
    intro r q hr hq hrq
    obtain ⟨r1, r2, r3⟩ := hlab' r hr
    obtain ⟨q1, q2, q3⟩ := hlab' q hq
    simp only [lt, relabelRow]
    rcases hrq with hlt | ⟨e, hlt⟩
    · left
      exact_mod_cast mono _ _ r1 hlt (by omega)
    · right
      exact ⟨by rw [e], by exact_mod_cast mono _ _ (by omega) hlt q3⟩
  · exact List.Pairwise.filter _ hinc
  · intro t
    unfold keptRows
    rw [List.mem_filter]
    constructor
    · intro ht
      obtain ⟨r, hr, rfl⟩ := List.mem_map.1 ht
      obtain ⟨c, hc, rfl⟩ := List.mem_map.1 hr
      obtain ⟨f, g, hf, hg, hle⟩ := netCands_labels (fun f hf => (hgood' f hf).l) hc
      have hA := (List.getElem?_eq_some_iff.1 hf).1
      have hB := (List.getElem?_eq_some_iff.1 hg).1
      refine ⟨List.mem_map.2 ⟨relabelCand φ c, (h.mem_cands hgood' periodic hle hB).2 hc, netRow_kept h hA hB⟩, ?_⟩
      rw [Bool.and_eq_true, isKept_iff, isKept_iff]
      exact ⟨⟨c.A, hA, by simp [relabelRow, netRow]⟩, ⟨c.B, hB, by simp [relabelRow, netRow]⟩⟩
    · rintro ⟨ht, hk⟩
      rw [Bool.and_eq_true, isKept_iff, isKept_iff] at hk
      obtain ⟨⟨a, ha, ea⟩, ⟨b, hb, eb⟩⟩ := hk
      obtain ⟨c, hc, rfl⟩ := List.mem_map.1 ht
      obtain ⟨f, g, hf, hg, hle⟩ := netCands_labels (fun f hf => (hgood f hf).l) hc
      simp only [netRow] at ea eb
      have ea : φ a = c.A := by exact_mod_cast ea
      have eb : φ b = c.B := by exact_mod_cast eb
      have hab : a ≤ b := by
        by_contra hlt
        have := h.mono b a (by omega) ha
        omega
      have ec : c = relabelCand φ ⟨a, b, c.sA, c.sB⟩ := by
        cases c; simp only [relabelCand, Cand.mk.injEq, and_self, and_true]; exact ⟨ea.symm, eb.symm⟩
      rw [ec] at hc ⊢
      refine List.mem_map.2 ⟨_, List.mem_map.2 ⟨_, (h.mem_cands hgood' periodic hab hb).1 hc, rfl⟩, ?_⟩
      exact (netRow_kept h ha hb).symm

theorem thick_kept (h : KeptMat φ m m') {i : ℕ} (hi : i < m'.fibers.length) : thick m (φ i) = thick m' i := by
  obtain ⟨f, hf, hf'⟩ := h.fiber i hi
  rw [thick_of hf, thick_of hf']

/-- Heights of the whole mat, on the part. -/
theorem kept_feasible (h : KeptMat φ m m') (hm : GoodMat m) {periodic : Bool} {net net' : Net K} (hn : netNew m periodic = .ok net)
    (hn' : netNew m' periodic = .ok net') {z : ℕ → K} (hz : NoOverlap m net.rows z) : NoOverlap m' net'.rows (fun i => z (φ i)) := by
  obtain ⟨n2, hn2, hrows⟩ := C112_net h hm hn
  rw [hn'] at hn2
  cases hn2
  have hlab' := C06_labels (h.good hm) hn'
  refine ⟨fun i hi => ?_, fun r hr hlt => ?_⟩
  · obtain ⟨f, -, hf'⟩ := h.fiber i hi
    rw [← thick_kept h hi]
    exact hz.floor _ (List.getElem?_eq_some_iff.1 hf').1
  · obtain ⟨r1, r2, r3⟩ := hlab' r hr
    have hmem : relabelRow φ r ∈ net.rows := by
      have : relabelRow φ r ∈ net'.rows.map (relabelRow φ) := List.mem_map.2 ⟨r, hr, rfl⟩
      rw [hrows] at this
      exact (List.mem_filter.1 this).1
    have hmono := h.mono r.A.toNat r.B.toNat (by omega) (by omega)
    have := hz.gap _ hmem (by simp only [relabelRow]; exact_mod_cast hmono)
    simp only [relabelRow, Int.toNat_natCast] at this
    rw [thick_kept h (by omega), thick_kept h (by omega)] at this
    exact this

/-- Leaving fibers out raises no other fiber. -/
theorem C112_lower (h : KeptMat φ m m') (hm : GoodMat m) {periodic : Bool} {net net' st st' : Net K} {m1 m1' : Mat K} {lp lp' : Linprog K}
    (hlp : GoodLinprog lp) (hlp' : GoodLinprog lp') (hn : netNew m periodic = .ok net) (hn' : netNew m' periodic = .ok net')
    {threshold threshold' : Option K} (hst : stackNew lp m net threshold = .ok (m1, st))
    (hst' : stackNew lp' m' net' threshold' = .ok (m1', st')) {i : ℕ} (hi : i < m'.fibers.length) :
    heightOf m1' i ≤ heightOf m1 (φ i) := by
  have hm' := h.good hm
  obtain ⟨hck, ho, -⟩ := netNew_over hm hn
  obtain ⟨hck', ho', -⟩ := netNew_over hm' hn'
  obtain ⟨-, hlow, -⟩ := stack_lowest hlp hm hck ho hst
  obtain ⟨-, hlow', -⟩ := stack_lowest hlp' hm' hck' ho' hst'
  exact hlow'.2 _ (kept_feasible h hm hn hn' hlow.1) i hi

/-- Leaving out fibers that lie under no crossing fiber of the rest changes no height. -/
theorem C112_heights (h : KeptMat φ m m') (hm : GoodMat m) {periodic : Bool} {net net' st st' : Net K} {m1 m1' : Mat K}
    {lp lp' : Linprog K}
    (hlp : GoodLinprog lp) (hlp' : GoodLinprog lp') (hn : netNew m periodic = .ok net) (hn' : netNew m' periodic = .ok net')
    (hclosed : ClosedBelow φ m'.fibers.length net.rows) {threshold threshold' : Option K}
    (hst : stackNew lp m net threshold = .ok (m1, st)) (hst' : stackNew lp' m' net' threshold' = .ok (m1', st')) {i : ℕ}
    (hi : i < m'.fibers.length) : heightOf m1' i = heightOf m1 (φ i) := by
  classical
  have hm' := h.good hm
  have hle := fun i => C112_lower h hm hlp hlp' hn hn' hst hst' (i := i)
  obtain ⟨hck, ho, -⟩ := netNew_over hm hn
  obtain ⟨hck', ho', -⟩ := netNew_over hm' hn'
  obtain ⟨-, hlow, -⟩ := stack_lowest hlp hm hck ho hst
  obtain ⟨-, hlow', -⟩ := stack_lowest hlp' hm' hck' ho' hst'
  obtain ⟨n2, hn2, hrows⟩ := C112_net h hm hn
  rw [hn'] at hn2
  cases hn2
  refine le_antisymm (hle i hi) ?_
  let y : ℕ → K := fun j => if hj : ∃ k, k < m'.fibers.length ∧ φ k = j then heightOf m1' hj.choose else heightOf m1 j
  have yin : ∀ k, k < m'.fibers.length → y (φ k) = heightOf m1' k := by
    intro k hk
    have hj : ∃ k', k' < m'.fibers.length ∧ φ k' = φ k := ⟨k, hk, rfl⟩
    simp only [y, dif_pos hj]
    congr 1
    exact h.inj hj.choose_spec.1 hk hj.choose_spec.2
  have yle : ∀ j, y j ≤ heightOf m1 j := by
    intro j
    by_cases hj : ∃ k, k < m'.fibers.length ∧ φ k = j
    · obtain ⟨k, hk, rfl⟩ := hj
      rw [yin k hk]
      exact hle k hk
    · simp only [y, dif_neg hj]; exact le_refl _
  have hy : NoOverlap m net.rows y := by
    refine ⟨fun j hj => ?_, fun r hr hlt => ?_⟩
    · by_cases hjk : ∃ k, k < m'.fibers.length ∧ φ k = j
      · obtain ⟨k, hk, rfl⟩ := hjk
        rw [yin k hk, thick_kept h hk]
        exact hlow'.1.floor k hk
      · simp only [y, dif_neg hjk]
        exact hlow.1.floor j hj
    · obtain ⟨r1, r2, r3⟩ := ho r hr
      by_cases hB : ∃ k, k < m'.fibers.length ∧ φ k = r.B.toNat
      · obtain ⟨b, hb, eb⟩ := hB
        have kB : isKept φ m'.fibers.length r.B = true := isKept_iff.2 ⟨b, hb, by rw [eb]; omega⟩
        have kA := hclosed r hr hlt kB
        obtain ⟨a, ha, ea⟩ := isKept_iff.1 kA
        have ea : φ a = r.A.toNat := by omega
        have hrk : r ∈ net'.rows.map (relabelRow φ) := by
          rw [hrows]
          exact List.mem_filter.2 ⟨hr, by rw [kA, kB]; rfl⟩
        obtain ⟨q, hq, eq⟩ := List.mem_map.1 hrk
        obtain ⟨q1, q2, q3⟩ := ho' q hq
        have eqA : r.A.toNat = φ q.A.toNat := by rw [← eq]; simp [relabelRow]
        have eqB : r.B.toNat = φ q.B.toNat := by rw [← eq]; simp [relabelRow]
        have hqlt : q.A < q.B := by
          rcases lt_or_eq_of_le q2 with h1 | h1
          · exact h1
          · rw [h1] at eqA
            omega
        have := hlow'.1.gap q hq hqlt
        rw [eqA, eqB, yin _ (by omega), yin _ (by omega), thick_kept h (by omega), thick_kept h (by omega)]
        exact this
      · have e : y r.B.toNat = heightOf m1 r.B.toNat := by simp only [y, dif_neg hB]
        have := hlow.1.gap r hr hlt
        have := yle r.A.toNat
        rw [e]
        linarith
  obtain ⟨f, -, hf'⟩ := h.fiber i hi
  have := hlow.2 y hy (φ i) (List.getElem?_eq_some_iff.1 hf').1
  rwa [yin i hi] at this

/-- The stack of such a part is the part of the stack. -/
theorem C112_stack (h : KeptMat φ m m') (hm : GoodMat m) {periodic : Bool} {net net' st st' : Net K} {m1 m1' : Mat K}
    {lp lp' : Linprog K}
    (hlp : GoodLinprog lp) (hlp' : GoodLinprog lp') (hn : netNew m periodic = .ok net) (hn' : netNew m' periodic = .ok net')
    (hclosed : ClosedBelow φ m'.fibers.length net.rows) {threshold : Option K} (hne : m'.fibers ≠ [])
    (hst : stackNew lp m net threshold = .ok (m1, st)) (hst' : stackNew lp' m' net' threshold = .ok (m1', st')) :
    KeptMat φ m1 m1' ∧ st'.rows.map (relabelRow φ) = keptRows φ m'.fibers.length st.rows := by
  have hm' := h.good hm
  have hz := fun i => C112_heights h hm hlp hlp' hn hn' hclosed hst hst' (i := i)
  have hne0 : m.fibers ≠ [] := by
    intro e
    obtain ⟨f, -, hf⟩ := h.fiber 0 (List.length_pos_iff.2 hne)
    rw [e] at hf
    cases hf
  have facts : ∀ {m m1 : Mat K} {net st : Net K} {lp : Linprog K}, GoodLinprog lp → GoodMat m → m.fibers ≠ [] → netNew m periodic = .ok net →
      stackNew lp m net threshold = .ok (m1, st) → ∃ n1, netNew m1 periodic = .ok n1 ∧ st = keep threshold n1 ∧ GoodMat m1 ∧ SameExceptZ m m1 := by
    intro m m1 net st lp hlp hm hne hn hst
    obtain ⟨hck, ho, hper⟩ := netNew_over hm hn
    obtain ⟨-, -, hsame, hgood, hcase⟩ := stack_lowest hlp hm hck ho hst
    rcases hcase with ⟨he, -⟩ | ⟨n1, g1, e⟩
    · exact absurd he hne
    · rw [hper] at g1
      exact ⟨n1, g1, e, hgood, hsame⟩
  obtain ⟨n1, g1, rfl, hgood, hsame⟩ := facts hlp hm hne0 hn hst
  obtain ⟨n1', g1', rfl, hgood', hsame'⟩ := facts hlp' hm' hne hn' hst'
  have same : ∀ {m m1 : Mat K}, SameExceptZ m m1 → ∀ {k : ℕ} {f : Fiber K}, m.fibers[k]? = some f → m1.fibers[k]? = some { f with z := heightOf m1 k } := by
    intro m m1 hs k f hf
    have hk := congrArg (fun l : List (Fiber K) => l[k]?) hs.2
    simp only [List.getElem?_map, hf, Option.map_some] at hk
    cases hg : m1.fibers[k]? with
    | none => rw [hg] at hk; cases hk
    | some g =>
      rw [hg, Option.map_some, Option.some.injEq] at hk
      have ez : heightOf m1 k = g.z := by simp [heightOf, hg]
      rw [ez]
      obtain ⟨⟩ := f
      obtain ⟨⟩ := g
      simp only [Fiber.mk.injEq, Option.some.injEq] at hk ⊢
      tauto
  have hlen : m1'.fibers.length = m'.fibers.length := by
    have := congrArg List.length hsame'.2
    simpa using this.symm
  have hk1 : KeptMat φ m1 m1' := by
    refine ⟨?_, fun i j hij hj => h.mono i j hij (by omega), ?_⟩
    · rw [← hsame'.1, ← hsame.1, hlen]; exact h.attrs
    · intro i hi
      obtain ⟨f, hf, hf'⟩ := h.fiber i (by omega)
      refine ⟨_, same hsame' hf, ?_⟩
      rw [hz i (by omega)]
      exact same hsame hf'
  refine ⟨hk1, ?_⟩
  obtain ⟨n2, hn2, hrows⟩ := C112_net hk1 hgood g1
  rw [g1'] at hn2
  cases hn2
  rw [hlen] at hrows
  cases threshold with
  | none => simpa only [keep] using hrows
  | some t =>
    have hlab := C06_labels hgood' g1'
    simp only [keep, thresholdRows]
    have e1 : n1'.rows.filter (fun r => decide (|r.zB - r.zA| ≤ t ∨ r.A = r.B)) =
        n1'.rows.filter ((fun r => decide (|r.zB - r.zA| ≤ t ∨ r.A = r.B)) ∘ relabelRow φ) := by
      refine List.filter_congr ?_
      intro r hr
      obtain ⟨r1, r2, r3⟩ := hlab r hr
      have : (φ r.A.toNat : Int) = φ r.B.toNat ↔ r.A = r.B := by
        constructor
        · intro e
          have := hk1.inj (i := r.A.toNat) (j := r.B.toNat) (by omega) (by omega) (by exact_mod_cast e)
          omega
        · intro e; rw [e]
      simp only [Function.comp, relabelRow, this]
    rw [e1, ← List.filter_map, hrows]
    unfold keptRows
    rw [List.filter_filter, List.filter_filter]
    refine List.filter_congr ?_
    intro r _
    rw [Bool.and_comm]

/-- C112: fibers laid on top of a mat, i.e. listed after the others, change neither the connections nor the heights of the others. -/
theorem C112_top {fs gs : List (Fiber K)} {attrs : Attrs K} (hm : GoodMat ⟨fs ++ gs, attrs⟩) {periodic : Bool} {net : Net K}
    (hn : netNew ⟨fs ++ gs, attrs⟩ periodic = .ok net) {lp lp' : Linprog K} (hlp : GoodLinprog lp) (hlp' : GoodLinprog lp')
    {threshold threshold' : Option K} {m1 : Mat K} {st : Net K} (hst : stackNew lp ⟨fs ++ gs, attrs⟩ net threshold = .ok (m1, st)) :
    GoodMat (⟨fs, { attrs with n := some (fs.length : Int) }⟩ : Mat K) ∧ ∃ net' m1' st',
      netNew ⟨fs, { attrs with n := some (fs.length : Int) }⟩ periodic = .ok net' ∧
      net'.rows = net.rows.filter (fun r => decide (r.B < (fs.length : Int))) ∧
      stackNew lp' ⟨fs, { attrs with n := some (fs.length : Int) }⟩ net' threshold' = .ok (m1', st') ∧
      ∀ i, i < fs.length → heightOf m1' i = heightOf m1 i := by
  have h : KeptMat (fun i => i) (⟨fs ++ gs, attrs⟩ : Mat K) ⟨fs, { attrs with n := some (fs.length : Int) }⟩ := by
    refine ⟨rfl, fun i j hij _ => hij, fun i hi => ⟨fs[i], List.getElem?_eq_getElem hi, ?_⟩⟩
    rw [List.getElem?_append_left hi]
    exact List.getElem?_eq_getElem hi
  have hm' := h.good hm
  obtain ⟨net', hn', hrows⟩ := C112_net h hm hn
  obtain ⟨hck, ho, -⟩ := netNew_over hm' hn'
  obtain ⟨⟨m1', st'⟩, hst'⟩ := C15_stack_ok hlp' hm' hck ho threshold'
  have hlab := C06_labels hm hn
  have hk : ∀ i : Int, 0 ≤ i → (isKept (fun i => i) fs.length i = true ↔ i < fs.length) := by
    intro i h0
    rw [isKept_iff]
    constructor
    · rintro ⟨j, hj, rfl⟩; exact_mod_cast hj
    · intro hi; exact ⟨i.toNat, by omega, by omega⟩
  refine ⟨hm', net', m1', st', hn', ?_, hst', ?_⟩
  · have e : net'.rows.map (relabelRow (fun i => i)) = net'.rows := by
      refine (List.map_congr_left ?_).trans (List.map_id _)
      intro r hr
      obtain ⟨r1, r2, -⟩ := ho r hr
      simp only [relabelRow, id]
      rw [Int.toNat_of_nonneg r1, Int.toNat_of_nonneg (by omega)]
    rw [e] at hrows
    rw [hrows]
    unfold keptRows
    refine List.filter_congr ?_
    intro r hr
    obtain ⟨r1, r2, -⟩ := hlab r hr
    rw [Bool.eq_iff_iff, Bool.and_eq_true, hk _ r1, hk _ (by omega), decide_eq_true_eq]
    omega
  · intro i hi
    refine C112_heights h hm hlp hlp' hn hn' ?_ hst hst' hi
    intro r hr hlt hB
    obtain ⟨r1, r2, -⟩ := hlab r hr
    rw [hk _ (by omega)] at hB
    exact (hk _ r1).2 (by omega)
end

/-! ### Thicknesses -/

/-- The axis of a fiber. -/
def bare (f : Fiber K) : Fiber K := { f with b := 0, h := 0, G := 0, E := ⊤ }

theorem ext_bare (periodic : Bool) (S : K) (fs : List (Fiber K)) :
    extFibers periodic S (fs.map bare) = (extFibers periodic S fs).map (fun p => (p.1, bare p.2)) := by
  have h1 : maxLength (fs.map bare) = maxLength fs := by
    cases fs with
    | nil => rfl
    | cons f t => simp only [maxLength, List.map_cons, List.foldl_map]; rfl
  have h2 : (fs.map bare).zipIdx.map (fun p => (p.2, p.1)) = (fs.zipIdx.map (fun p => (p.2, p.1))).map (fun p => (p.1, bare p.2)) := by
    rw [List.zipIdx_map, List.map_map, List.map_map]; rfl
  unfold extFibers
  cases periodic with
  | false => exact h2
  | true =>
    simp only [if_true, periodicFibers, h1, h2, List.map_append, List.map_map, List.filter_map]
    rfl

theorem netCands_bare (periodic : Bool) (S : K) (fs : List (Fiber K)) : netCands periodic S (fs.map bare) = netCands periodic S fs := by
  unfold netCands
  rw [ext_bare, triu_map, List.filterMap_map]
  rfl

/-- C112: the net depends on the axes of the fibers only, not on thicknesses, widths and moduli. -/
theorem C112_axes {m m' : Mat K} (h : GoodMat m) (h' : GoodMat m') (hs : SameAxes m m') {periodic : Bool} {net : Net K}
    (hn : netNew m periodic = .ok net) : netNew m' periodic = .ok net := by
  obtain ⟨S, hS, -, rfl⟩ := netNew_ok h hn
  rw [netNew_eq h' (by rw [hs.1]; exact hS)]
  have hb : m.fibers.map bare = m'.fibers.map bare := by
    have := congrArg (List.map (fun t : K × K × K × K × K × K × K =>
      (⟨t.1, 0, 0, t.2.1, t.2.2.1, t.2.2.2.1, t.2.2.2.2.1, t.2.2.2.2.2.1, t.2.2.2.2.2.2, 0, ⊤⟩ : Fiber K))) hs.2
    rw [List.map_map, List.map_map] at this
    exact this
  rw [← netCands_bare, ← hb, netCands_bare, hs.1]
  congr 2
  refine List.map_congr_left ?_
  intro c _
  have e : ∀ i : Nat, bare (m.fibers.getD i Fiber.zero) = bare (m'.fibers.getD i Fiber.zero) := by
    intro i
    have e1 : ∀ fs : List (Fiber K), bare (fs.getD i Fiber.zero) = (fs.map bare).getD i (bare Fiber.zero) := by
      intro fs
      simp only [List.getD_eq_getElem?_getD, List.getElem?_map]
      cases fs[i]? <;> rfl
    rw [e1, e1, hb]
  have ea := e c.A
  have eb := e c.B
  simp only [bare, Fiber.mk.injEq] at ea eb
  simp only [netRow, ea, eb]

/-- C112: thicker fibers make a higher stack, by no more than the thickness added at and below each fiber. -/
theorem C112_thickness {m m' : Mat K} (h : GoodMat m) (h' : GoodMat m') (hs : SameAxes m m') (hle : ∀ k, thick m k ≤ thick m' k)
    {lp lp' : Linprog K} (hlp : GoodLinprog lp) (hlp' : GoodLinprog lp') {periodic : Bool} {net : Net K}
    (hn : netNew m periodic = .ok net) {threshold threshold' : Option K} {m1 m1' : Mat K} {st st' : Net K}
    (hst : stackNew lp m net threshold = .ok (m1, st)) (hst' : stackNew lp' m' net threshold' = .ok (m1', st')) {i : ℕ}
    (hi : i < m.fibers.length) :
    heightOf m1 i + (thick m' i - thick m i) / 2 ≤ heightOf m1' i ∧ heightOf m1' i ≤
      heightOf m1 i + ∑ k ∈ Finset.range i, (thick m' k - thick m k) + (thick m' i - thick m i) / 2 := by
  have hlen : m'.fibers.length = m.fibers.length := by
    have := congrArg List.length hs.2
    simpa using this.symm
  have hn' := C112_axes h h' hs hn
  obtain ⟨hck, ho, -⟩ := netNew_over h hn
  obtain ⟨hck', ho', -⟩ := netNew_over h' hn'
  obtain ⟨-, hlow, -⟩ := stack_lowest hlp h hck ho hst
  obtain ⟨-, hlow', -⟩ := stack_lowest hlp' h' hck' ho' hst'
  constructor
  · have := hlow.2 (fun k => heightOf m1' k - (thick m' k - thick m k) / 2) ?_ i hi
    · linarith
    · refine ⟨fun k hk => ?_, fun r hr hlt => ?_⟩
      · have := hlow'.1.floor k (by omega)
        linarith
      · have := hlow'.1.gap r hr hlt
        have := hle r.A.toNat
        linarith
  · refine hlow'.2 (fun i => heightOf m1 i + ∑ k ∈ Finset.range i, (thick m' k - thick m k) + (thick m' i - thick m i) / 2) ?_ i (by omega)
    refine ⟨fun k hk => ?_, fun r hr hlt => ?_⟩
    · have := hlow.1.floor k (by omega)
      have : 0 ≤ ∑ j ∈ Finset.range k, (thick m' j - thick m j) := Finset.sum_nonneg (fun j _ => sub_nonneg.2 (hle j))
      linarith
    · obtain ⟨r1, r2, r3⟩ := ho r hr
      have := hlow.1.gap r hr hlt
      have : ∑ j ∈ Finset.range (r.A.toNat + 1), (thick m' j - thick m j) ≤ ∑ j ∈ Finset.range r.B.toNat, (thick m' j - thick m j) := by
        refine Finset.sum_le_sum_of_subset_of_nonneg (fun j hj => ?_) (fun j _ _ => sub_nonneg.2 (hle j))
        rw [Finset.mem_range] at hj ⊢
        omega
      rw [Finset.sum_range_succ] at this
      have := hle r.A.toNat
      linarith

end Fibermat
