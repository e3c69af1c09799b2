import Verif.Lemmas.Loads

/-! # C96: loads carried by the stacked fibers -/

set_option linter.unusedSectionVars false

namespace Fibermat
open Spec
variable {K : Type} [Field K] [LinearOrder K] [IsStrictOrderedRing K]

theorem comp_neg (d : List K) (k : ℕ) : comp (d.map (fun v => -v)) k = -comp d k := by
  unfold comp
  rw [List.getD_eq_getElem?_getD, List.getD_eq_getElem?_getD, List.getElem?_map]
  cases d[k]? <;> simp

theorem col_entry {m : Mat K} {net : Net K} (ho : OverMat m net.rows) {k j : ℕ} (hk : k < (innerRows net.rows).length) (hj : j < m.fibers.length) :
    (stackSysOf m net).C.get k j =
      (if rowA (innerRows net.rows) k = (j : Int) then 1 else 0) - (if rowB (innerRows net.rows) k = (j : Int) then 1 else 0) := by
  have hr := List.getElem?_eq_getElem hk
  have e := stack_row ho hr (fun i => if i = j then 1 else 0)
  have hm := ho _ (List.mem_of_mem_filter (List.getElem_mem hk))
  simp only [mul_ite, mul_one, mul_zero, Finset.sum_ite_eq', Finset.mem_range, hj, if_true] at e
  rw [e]
  simp only [rowA, rowB, hr, Option.map_some, Option.getD_some]
  have h1 : ((innerRows net.rows)[k].A.toNat = j) ↔ ((innerRows net.rows)[k].A = (j : Int)) := by omega
  have h2 : ((innerRows net.rows)[k].B.toNat = j) ↔ ((innerRows net.rows)[k].B = (j : Int)) := by omega
  simp only [h1, h2]

theorem weight_comp {m : Mat K} {net : Net K} {j : ℕ} (hj : j < m.fibers.length) : comp (stackSysOf m net).lp.f j = weight m j := by
  have : comp (stackSysOf m net).lp.f j = _ :=
    comp_map m.fibers (fun g => npPi / 4 * (g.l * g.b * g.h)) (List.getElem?_eq_getElem hj)
  rw [this]
  simp [weight, List.getElem?_eq_getElem hj]

theorem reduced_eq {m : Mat K} {net : Net K} (ho : OverMat m net.rows) {d : List K} (hd : d.length = (innerRows net.rows).length) {j : ℕ}
    (hj : j < m.fibers.length) : reduced (stackSysOf m net).lp d j =
      weight m j + pressOn (innerRows net.rows) (d.map (fun v => -v)) j - pressUnder (innerRows net.rows) (d.map (fun v => -v)) j := by
  unfold reduced
  rw [weight_comp hj, pressOn_eq (by simpa using hd), pressUnder_eq (by simpa using hd)]
  have : ∑ k ∈ Finset.range (stackSysOf m net).lp.C.nrows, comp d k * (stackSysOf m net).lp.C.get k j =
      ∑ k ∈ Finset.range (innerRows net.rows).length, ((if rowB (innerRows net.rows) k = (j : Int) then comp (d.map (fun v => -v)) k else 0) -
        (if rowA (innerRows net.rows) k = (j : Int) then comp (d.map (fun v => -v)) k else 0)) := by
    apply Finset.sum_congr rfl
    intro k hk
    have : (stackSysOf m net).lp.C.get k j = _ := col_entry ho (Finset.mem_range.1 hk) hj
    rw [this, comp_neg]
    split_ifs <;> ring
  rw [this, Finset.sum_sub_distrib]
  ring

theorem inner_labels {m : Mat K} {rows : List (NetRow K)} (ho : OverMat m rows) :
    ∀ r ∈ innerRows rows, 0 ≤ r.A ∧ r.A < r.B ∧ r.B < (m.fibers.length : Int) := by
  intro r hr
  obtain ⟨h1, h2⟩ := mem_innerRows.1 hr
  have := ho r h1
  omega

theorem same_weight {m m' : Mat K} (hsame : SameExceptZ m m') (i : ℕ) : weight m' i = weight m i := by
  have e := congrArg (fun l : List (Fiber K) => (l[i]?).map (fun f => npPi / 4 * (f.l * f.b * f.h))) hsame.2
  simp only [List.getElem?_map, Option.map_map] at e
  simp only [weight]
  have e' : (m.fibers[i]?).map (fun f => npPi / 4 * (f.l * f.b * f.h)) = (m'.fibers[i]?).map (fun f => npPi / 4 * (f.l * f.b * f.h)) := e
  rw [e']

theorem H_comp {m : Mat K} {net : Net K} {k : ℕ} {r : NetRow K} (hr : (innerRows net.rows)[k]? = some r) :
    comp (stackSysOf m net).lp.H k = -((thick m r.A.toNat + thick m r.B.toNat) / 2) := by
  have : (stackSysOf m net).lp.H = (innerRows net.rows).map (fun r => -((thick m r.A.toNat + thick m r.B.toNat) / 2)) := by
    simp only [StackSys.lp, stackSysOf, comp_h]
  rw [this, comp_map _ _ hr]

theorem lower_comp {m : Mat K} {net : Net K} {i : ℕ} (hi : i < m.fibers.length) : comp (stackSysOf m net).lp.lower i = thick m i / 2 := by
  have : (stackSysOf m net).lp.lower = m.fibers.map (fun f => f.h / 2) := by simp [StackSys.lp, stackSysOf]
  rw [this, comp_map _ _ (List.getElem?_eq_getElem hi), thick_of (List.getElem?_eq_getElem hi)]

/-- A row of the program is tight exactly when the fibers touch. -/
theorem tight_iff {m m' : Mat K} {net : Net K} (ho : OverMat m net.rows) (hsame : SameExceptZ m m') {z : List K}
    (hh : ∀ i, i < m.fibers.length → heightOf m' i = comp z i) {k : ℕ} {r : NetRow K} (hr : (innerRows net.rows)[k]? = some r) :
    (∑ j ∈ Finset.range (stackSysOf m net).lp.f.length, (stackSysOf m net).lp.C.get k j * comp z j = comp (stackSysOf m net).lp.H k) ↔
      Touches m' r := by
  have hf : (stackSysOf m net).lp.f.length = m.fibers.length := by simp [StackSys.lp, stackSysOf]
  have e : ∑ j ∈ Finset.range m.fibers.length, (stackSysOf m net).lp.C.get k j * comp z j = _ := stack_row ho hr (comp z)
  rw [hf, e, H_comp hr]
  have hl := inner_labels ho r (List.mem_of_getElem? hr)
  unfold Touches
  rw [hh _ (by omega), hh _ (by omega), same_thick hsame, same_thick hsame]
  constructor <;> intro h <;> linarith

/-- C96: sensitivities of the stacking program are, up to the sign, forces that hold the fibers, and conversely. -/
theorem C96_dual {m m' : Mat K} {net : Net K} (ho : OverMat m net.rows) (hsame : SameExceptZ m m') {z : List K}
    (hh : ∀ i, i < m.fibers.length → heightOf m' i = comp z i) (d : List K) :
    IsDual (stackSysOf m net).lp z d ↔ ∃ N, Held m' (innerRows net.rows) (d.map (fun v => -v)) N := by
  have hf : (stackSysOf m net).lp.f.length = m.fibers.length := by simp [StackSys.lp, stackSysOf]
  have hn : (stackSysOf m net).lp.C.nrows = (innerRows net.rows).length := rfl
  have hlen := same_length hsame
  constructor
  · intro h
    have hd : d.length = (innerRows net.rows).length := by rw [h.size, hn]
    refine ⟨reduced (stackSysOf m net).lp d, ⟨by simpa using hd, ?_, ?_, ?_, ?_, ?_⟩⟩
    · intro v hv
      obtain ⟨x, hx, rfl⟩ := List.mem_map.1 hv
      obtain ⟨k, hk⟩ := List.mem_iff_getElem?.1 hx
      have hk' := (List.getElem?_eq_some_iff.1 hk).1
      have := h.sign k (by rw [hn]; omega)
      have e : comp d k = x := by simp [comp, List.getD_eq_getElem?_getD, hk]
      rw [e] at this
      linarith
    · intro i hi
      exact h.cost i (by rw [hf]; omega)
    · rintro ⟨r, v⟩ hp hv
      obtain ⟨k, hk⟩ := List.mem_iff_getElem?.1 hp
      rw [List.getElem?_zip_eq_some] at hk
      obtain ⟨h1, h2⟩ := hk
      simp only at h1 h2 hv ⊢
      have hk' := (List.getElem?_eq_some_iff.1 h1).1
      refine (tight_iff ho hsame hh h1).1 (h.slack k (by rw [hn]; exact hk') ?_)
      have e : comp (d.map (fun v => -v)) k = v := by simp [comp, List.getD_eq_getElem?_getD, h2]
      rw [comp_neg] at e
      intro h0
      rw [h0] at e
      exact hv (by rw [← e]; simp)
    · intro i hi hne
      have := h.bound i (by rw [hf]; omega) hne
      rw [hh i (by omega), this, lower_comp (by omega), same_thick hsame]
    · intro i hi
      rw [reduced_eq ho hd (by omega), same_weight hsame]
      ring
  · rintro ⟨N, h⟩
    have hd : d.length = (innerRows net.rows).length := by simpa using h.size
    have hred : ∀ j, j < m.fibers.length → reduced (stackSysOf m net).lp d j = N j := by
      intro j hj
      have := h.balance j (by omega)
      rw [reduced_eq ho hd hj, ← same_weight hsame]
      linarith
    refine ⟨by rw [hd, hn], ?_, ?_, ?_, ?_⟩
    · intro k hk
      have := comp_nonneg h.push k
      rw [comp_neg] at this
      linarith
    · intro j hj
      rw [hf] at hj
      rw [hred j hj]
      exact h.floor j (by omega)
    · intro k hk hne
      rw [hn] at hk
      have hr := List.getElem?_eq_getElem hk
      refine (tight_iff ho hsame hh hr).2 ?_
      have hk2 : k < (d.map (fun v => -v)).length := by rw [h.size]; exact hk
      have := h.touch ((innerRows net.rows)[k], (d.map (fun v => -v))[k]) (by
        refine List.mem_iff_getElem?.2 ⟨k, ?_⟩
        rw [List.getElem?_zip_eq_some]
        exact ⟨hr, List.getElem?_eq_getElem hk2⟩)
      refine this ?_
      have e : comp (d.map (fun v => -v)) k = (d.map (fun v => -v))[k] := by
        simp only [comp, List.getD_eq_getElem?_getD, List.getElem?_eq_getElem hk2, Option.getD_some]
      simp only
      rw [← e, comp_neg]
      simpa using hne
    · intro j hj hne
      rw [hf] at hj
      rw [hred j hj] at hne
      have := h.lies j (by omega) hne
      rw [lower_comp hj, ← hh j hj, this, same_thick hsame]

/-- C96: the lowest heights can be held: there always are such forces. -/
theorem C96_exists {m m' : Mat K} {rows : List (NetRow K)} (h : GoodMat m) (ho : OverMat m rows) (hsame : SameExceptZ m m')
    (hlow : Lowest m rows (heightOf m')) : ∃ F N, Held m' (innerRows rows) F N := by
  classical
  have hlen := same_length hsame
  obtain ⟨S, hS, hgood⟩ := h.size
  have hw : ∀ i, i < m.fibers.length → 0 ≤ weight m' i := by
    intro i hi
    rw [same_weight hsame]
    have g := hgood _ (List.getElem_mem hi)
    have := npPi_pos (K := K)
    have := g.l; have := g.b; have := g.h
    simp only [weight, List.getElem?_eq_getElem hi, Option.map_some, Option.getD_some]
    positivity
  have hl := inner_labels ho
  have hsup : ∀ i, i < m.fibers.length → heightOf m' i = thick m' i / 2 ∨
      ∃ k : ℕ, ∃ r, (innerRows rows)[k]? = some r ∧ r.B = (i : Int) ∧ Touches m' r := by
    intro i hi
    obtain ⟨z, hz, hs⟩ := exists_lowest ho
    have e := lowest_unique hlow hz
    rcases hs i hi with h1 | ⟨r, hr, h1, h2, h3⟩
    · left; rw [e i hi, h1, same_thick hsame]
    · right
      obtain ⟨k, hk⟩ := List.mem_iff_getElem?.1 (mem_innerRows.2 ⟨hr, h1⟩)
      refine ⟨k, r, hk, h2, ?_⟩
      have := hl r (List.mem_of_getElem? hk)
      unfold Touches
      rw [e _ (by omega), e _ (by omega), same_thick hsame, same_thick hsame]
      have hB : r.B.toNat = i := by omega
      rw [hB] at h3 ⊢
      rw [h3]; ring
  let s : ℕ → Option ℕ := fun i => if heightOf m' i = thick m' i / 2 then none else
    if hx : ∃ k : ℕ, ∃ r, (innerRows rows)[k]? = some r ∧ r.B = (i : Int) ∧ Touches m' r then some hx.choose else none
  have hsome : ∀ i k, s i = some k → ∃ r, (innerRows rows)[k]? = some r ∧ r.B = (i : Int) ∧ Touches m' r := by
    intro i k hk
    simp only [s] at hk
    split_ifs at hk with h1 h2
    · cases hk; exact h2.choose_spec
  have hnone : ∀ i, i < m.fibers.length → s i = none → heightOf m' i = thick m' i / 2 := by
    intro i hi hk
    rcases hsup i hi with h1 | h1
    · exact h1
    · simp only [s] at hk
      split_ifs at hk with h2
      exact h2
  obtain ⟨F, h1, h2, h3⟩ := support_flow (innerRows rows).length (rowA (innerRows rows)) (rowB (innerRows rows)) s (by
    intro i k hk
    obtain ⟨r, hr, hB, -⟩ := hsome i k hk
    have := hl r (List.mem_of_getElem? hr)
    simp only [rowA, rowB, hr, Option.map_some, Option.getD_some]
    exact ⟨(List.getElem?_eq_some_iff.1 hr).1, hB, by omega, this.1⟩) m.fibers.length (weight m') hw
  have hF : ((List.range (innerRows rows).length).map F).length = (innerRows rows).length := by simp
  have hc : ∀ k, k < (innerRows rows).length → comp ((List.range (innerRows rows).length).map F) k = F k := by
    intro k hk
    rw [comp_map _ _ (a := k)]; simp [hk]
  have hon : ∀ i, pressOn (innerRows rows) ((List.range (innerRows rows).length).map F) i =
      ∑ k ∈ Finset.range (innerRows rows).length, if rowA (innerRows rows) k = (i : Int) then F k else 0 := by
    intro i
    rw [pressOn_eq hF]
    exact Finset.sum_congr rfl (fun k hk => by rw [hc k (Finset.mem_range.1 hk)])
  have hun : ∀ i, pressUnder (innerRows rows) ((List.range (innerRows rows).length).map F) i =
      ∑ k ∈ Finset.range (innerRows rows).length, if rowB (innerRows rows) k = (i : Int) then F k else 0 := by
    intro i
    rw [pressUnder_eq hF]
    exact Finset.sum_congr rfl (fun k hk => by rw [hc k (Finset.mem_range.1 hk)])
  have honpos : ∀ i, 0 ≤ pressOn (innerRows rows) ((List.range (innerRows rows).length).map F) i := by
    intro i
    rw [hon]
    exact Finset.sum_nonneg (fun k _ => by split_ifs <;> [exact h1 k; exact le_rfl])
  refine ⟨(List.range (innerRows rows).length).map F, fun i => if s i = none then
    weight m' i + pressOn (innerRows rows) ((List.range (innerRows rows).length).map F) i else 0, hF, ?_, ?_, ?_, ?_, ?_⟩
  · intro v hv
    obtain ⟨k, -, rfl⟩ := List.mem_map.1 hv
    exact h1 k
  · intro i hi
    split_ifs with hn
    · exact add_nonneg (hw i (by omega)) (honpos i)
    · exact le_rfl
  · rintro ⟨r, v⟩ hp hv
    obtain ⟨k, hk⟩ := List.mem_iff_getElem?.1 hp
    rw [List.getElem?_zip_eq_some] at hk
    obtain ⟨k1, k2⟩ := hk
    simp only at k1 k2 hv ⊢
    have hk' := (List.getElem?_eq_some_iff.1 k1).1
    have e : v = F k := by
      rw [List.getElem?_map, List.getElem?_range hk', Option.map_some, Option.some.injEq] at k2
      exact k2.symm
    obtain ⟨i, hi, hs⟩ := h2 k (by rw [← e]; exact hv)
    obtain ⟨r', hr', -, ht⟩ := hsome i k hs
    rw [k1] at hr'; cases hr'
    exact ht
  · intro i hi hne
    split_ifs at hne with hn
    · exact hnone i (by omega) hn
    · exact absurd rfl hne
  · intro i hi
    obtain ⟨a1, a2⟩ := h3 i (by omega)
    split_ifs with hn
    · rw [hun, a2 hn, zero_add]
    · rw [hon, hun, add_zero]; exact a1 hn

end Fibermat
