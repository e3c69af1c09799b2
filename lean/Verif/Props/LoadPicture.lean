import Verif.Props.Loads
import Verif.Lemmas.Assembly

/-! # C96: the picture of the loads -/

set_option linter.unusedSectionVars false

namespace Fibermat
open Spec
variable {K : Type} [Field K] [LinearOrder K] [IsStrictOrderedRing K]

theorem stackSysOf_same {m m' : Mat K} (hsame : SameExceptZ m m') (net : Net K) : stackSysOf m' net = stackSysOf m net := by
  have e : ∀ {α : Type} (g : Fiber K → α), (∀ f : Fiber K, g { f with z := 0 } = g f) → m'.fibers.map g = m.fibers.map g := by
    intro α g hg
    have := congrArg (List.map g) hsame.2
    rw [List.map_map, List.map_map] at this
    have h2 : g ∘ (fun f : Fiber K => { f with z := 0 }) = g := funext hg
    rw [h2] at this
    exact this.symm
  unfold stackSysOf
  rw [e (fun g => npPi / 4 * (g.l * g.b * g.h)) (fun _ => rfl), e (·.h) (fun _ => rfl), same_length hsame]

theorem range_sum (n : ℕ) (f : ℕ → K) : ((List.range n).map f).sum = ∑ k ∈ Finset.range n, f k := by
  induction n with
  | zero => rfl
  | succ n ih => rw [List.range_succ, List.map_append, List.sum_append, ih, Finset.sum_range_succ]; simp

theorem loadsOf_eq {m : Mat K} {net : Net K} (ho : OverMat m net.rows) {d : List K} (hd : d.length = (innerRows net.rows).length) :
    loadsOf (stackSysOf m net).C d =
      (List.range m.fibers.length).map (fun i => -pressOn (innerRows net.rows) (d.map (fun v => -v)) i) := by
  unfold loadsOf
  have hn : (stackSysOf m net).C.ncols = m.fibers.length := rfl
  rw [hn]
  apply List.map_congr_left
  intro i hi
  rw [List.mem_range] at hi
  rw [range_sum, range_sum, ← Finset.sum_add_distrib, pressOn_eq (by simpa using hd), ← Finset.sum_neg_distrib]
  apply Finset.sum_congr rfl
  intro k hk
  rw [col_entry ho (Finset.mem_range.1 hk) hi, comp_neg]
  have hl := row_labels (inner_labels ho) (Finset.mem_range.1 hk)
  have hdk : d.getD k 0 = comp d k := rfl
  rw [hdk]
  by_cases hA : rowA (innerRows net.rows) k = (i : Int)
  · rw [if_pos hA, if_neg (by omega), if_pos hA]
    norm_num
    ring
  · rw [if_neg hA, if_neg hA]
    split_ifs <;> norm_num

theorem inner_plan {rows rows' : List (NetRow K)} (h : planColumns rows = planColumns rows') :
    (innerRows rows).map (fun r => (r.A, r.B)) = (innerRows rows').map (fun r => (r.A, r.B)) := by
  have e := congrArg (List.map (fun p : Int × Int × K × K × K × K × K × K => (p.1, p.2.1))) h
  simp only [planColumns, List.map_map] at e
  have e2 : rows.map (fun r => (r.A, r.B)) = rows'.map (fun r => (r.A, r.B)) := e
  have key : ∀ l : List (NetRow K), (innerRows l).map (fun r => (r.A, r.B)) = (l.map (fun r => (r.A, r.B))).filter (fun p => p.1 < p.2) := by
    intro l
    unfold innerRows
    rw [List.filter_map]
    rfl
  rw [key, key, e2]

theorem held_congr {m : Mat K} {rows rows' : List (NetRow K)} (h : rows.map (fun r => (r.A, r.B)) = rows'.map (fun r => (r.A, r.B)))
    {F : List K} {N : ℕ → K} (hh : Held m rows F N) : Held m rows' F N := by
  have hlen : rows.length = rows'.length := by simpa using congrArg List.length h
  have hk : ∀ k : ℕ, (rows[k]?).map (fun r : NetRow K => (r.A, r.B)) = (rows'[k]?).map (fun r : NetRow K => (r.A, r.B)) := by
    intro k
    have := congrArg (fun l : List (Int × Int) => l[k]?) h
    simpa using this
  have hA : rowA rows = rowA rows' := by
    funext k
    have := congrArg (Option.map Prod.fst) (hk k)
    simp only [Option.map_map] at this
    unfold rowA
    have e : (rows[k]?).map (fun r => r.A) = (rows'[k]?).map (fun r => r.A) := this
    rw [e]
  have hB : rowB rows = rowB rows' := by
    funext k
    have := congrArg (Option.map Prod.snd) (hk k)
    simp only [Option.map_map] at this
    unfold rowB
    have e : (rows[k]?).map (fun r => r.B) = (rows'[k]?).map (fun r => r.B) := this
    rw [e]
  have hs := hh.size
  refine ⟨by omega, hh.push, hh.floor, ?_, hh.lies, ?_⟩
  · rintro ⟨r, v⟩ hp hv
    obtain ⟨k, hkk⟩ := List.mem_iff_getElem?.1 hp
    rw [List.getElem?_zip_eq_some] at hkk
    obtain ⟨k1, k2⟩ := hkk
    have hlt : k < rows.length := by rw [hlen]; exact (List.getElem?_eq_some_iff.1 k1).1
    have := hh.touch (rows[k], v) (List.mem_iff_getElem?.2 ⟨k, by
      rw [List.getElem?_zip_eq_some]; exact ⟨List.getElem?_eq_getElem hlt, k2⟩⟩) hv
    have e := hk k
    rw [k1, List.getElem?_eq_getElem hlt] at e
    simp only [Option.map_some, Option.some.injEq, Prod.mk.injEq] at e
    unfold Touches at this ⊢
    simp only at this ⊢
    rw [← e.1, ← e.2]
    exact this
  · intro i hi
    have := hh.balance i hi
    rw [pressOn_eq hs, pressUnder_eq hs, hlen, hA, hB] at this
    rw [pressOn_eq (by omega), pressUnder_eq (by omega)]
    exact this

/-- The mean weight of the fibers. -/
theorem unit_eq (m : Mat K) : npPi / 4 * ((m.fibers.map (fun g => g.l * g.b * g.h)).sum / (m.fibers.length : K)) =
    (∑ i ∈ Finset.range m.fibers.length, weight m i) / (m.fibers.length : K) := by
  rw [← range_sum]
  have : (List.range m.fibers.length).map (weight m) = m.fibers.map (fun g => npPi / 4 * (g.l * g.b * g.h)) := by
    apply List.ext_getElem (by simp)
    intro i h1 h2
    simp only [List.length_map, List.length_range] at h1
    simp [weight, List.getElem?_eq_getElem h1]
  rw [this, List.sum_map_mul_left]
  ring

theorem minmax_exists {l : List K} (h : l ≠ []) : ∃ lo hi, l.min? = some lo ∧ l.max? = some hi ∧ lo ∈ l ∧ hi ∈ l ∧ ∀ v ∈ l, lo ≤ v ∧ v ≤ hi := by
  cases hlo : l.min? with
  | none => exact absurd (List.min?_eq_none_iff.1 hlo) h
  | some lo =>
    cases hhi : l.max? with
    | none => exact absurd (List.max?_eq_none_iff.1 hhi) h
    | some hi =>
      have h1 := (List.min?_eq_some_iff).1 hlo
      have h2 := (List.max?_eq_some_iff).1 hhi
      exact ⟨lo, hi, rfl, rfl, h1.1, h2.1, fun v hv => ⟨h1.2 v hv, h2.2 v hv⟩⟩

/-- Place in the colour scale. -/
theorem colorOf_eq {lo hi v : K} (h1 : lo ≤ v) (h2 : v ≤ hi) :
    colorOf lo hi v = .ok (.fin (if v = hi then 1 else (v - lo) / (hi - lo))) := by
  unfold colorOf
  rw [if_neg (by push Not; exact ⟨h1, h2⟩)]
  congr 1
  unfold npInterpR
  by_cases hv : v = hi
  · subst hv
    simp [h1]
  · have hlt : ¬ hi ≤ v := not_le.2 (lt_of_le_of_ne h2 hv)
    simp only [List.countP_cons, List.countP_nil, h1, hlt, hv, decide_true, decide_false, if_true, if_false, Nat.zero_add,
      Nat.sub_self, List.getD_cons_zero, List.length_cons, List.length_nil, List.getD_cons_succ, Bool.false_eq_true]
    by_cases hlo : lo = v
    · subst hlo
      simp
    · have hd : hi - lo ≠ 0 := by
        have : lo < v := lt_of_le_of_ne h1 hlo
        intro h0
        have : v < hi := lt_of_le_of_ne h2 hv
        linarith
      rw [if_neg (by simp [hlo])]
      have : segmentR id lo hi (.fin 0) (.fin 1) v lo (.fin 0) = .fin ((v - lo) / (hi - lo)) := by
        have e6 : ∀ a : K, (Cell.fin a / Cell.fin (id (hi - lo)) : Cell K) = .fin (a / (hi - lo)) := by
          intro a
          show (if hi - lo = 0 then _ else _) = _
          rw [if_neg hd]
          rfl
        have e7 : ((Cell.fin 1 - Cell.fin 0 : Cell K)).round id = .fin 1 := by
          show Cell.fin ((1 : K) + -0) = _
          simp
        unfold segmentR
        simp only [e7, e6]
        show Cell.fin (1 / (hi - lo) * (v - lo) + 0) = _
        congr 1
        ring
      rw [this]

theorem mapM_colors {lo hi : K} {l : List K} (h : ∀ v ∈ l, lo ≤ v ∧ v ≤ hi) :
    l.mapM (colorOf lo hi) = .ok (l.map (fun v => .fin (if v = hi then 1 else (v - lo) / (hi - lo)))) := by
  induction l with
  | nil => rfl
  | cons a t ih =>
    obtain ⟨h1, h2⟩ := h a (by simp)
    rw [List.mapM_cons, colorOf_eq h1 h2, ih (fun v hv => h v (by simp [hv]))]
    rfl

/-- What the main block does on a non-empty planar mat. -/
theorem loadPicture_eq {lin : LinprogSol K} (hlin : GoodLinprogSol lin) {m : Mat K} (h : GoodMat m) (hw : ∀ f ∈ m.fibers, f.w = 0)
    (hne : m.fibers ≠ []) (periodic : Bool) :
    ∃ P lo hi N, loadPicture lin m periodic = .ok P ∧ SameExceptZ m P.mat ∧
      (∃ net, netNew m periodic = .ok net ∧ planColumns P.stack.rows = planColumns net.rows ∧ Lowest m net.rows (heightOf P.mat) ∧
        ∃ x, lin (stackSysOf m net).lp = some ⟨x, P.force⟩) ∧
      (∀ r ∈ P.stack.rows, 0 ≤ r.A ∧ r.A ≤ r.B ∧ r.B < (P.mat.fibers.length : Int)) ∧
      (∀ r ∈ P.stack.rows, r.zA = heightOf P.mat r.A.toNat ∧ r.zB = heightOf P.mat r.B.toNat) ∧
      Held P.mat (innerRows P.stack.rows) (P.force.map (fun v => -v)) N ∧
      P.load = (List.range P.mat.fibers.length).map (fun i => -pressOn (innerRows P.stack.rows) (P.force.map (fun v => -v)) i /
        ((∑ i ∈ Finset.range P.mat.fibers.length, weight P.mat i) / (P.mat.fibers.length : K))) ∧
      lo ∈ P.load ∧ hi ∈ P.load ∧ (∀ v ∈ P.load, lo ≤ v ∧ v ≤ hi) ∧
      P.fibers = (P.mat.fibers.zip P.load).map (fun p => (drawnEnd p.1 (-1), drawnEnd p.1 1,
        .fin (if p.2 = hi then 1 else (p.2 - lo) / (hi - lo)))) ∧
      P.contacts = (((innerRows P.stack.rows).zip P.force).filter (fun p => ¬ |p.2| ≤ 1 / 100000000)).map (·.1) := by
  obtain ⟨net, hn, -⟩ := C06_netNew_ok h periodic
  obtain ⟨hck, ho, hper⟩ := netNew_over h hn
  have hm := (matCheck_frame_iff m).2 (Or.inr h)
  obtain ⟨sys, hs, -, -, z, hz, -⟩ := C15_unique_optimum h hck ho
  rw [stackConstraint_eq hm hck ho] at hs
  cases hs
  obtain ⟨hzl, hzlow⟩ := (optimal_iff h ho z).1 hz
  have lowest_set : ∀ y : List K, y.length = m.fibers.length → Lowest m net.rows (comp y) → Lowest m net.rows (heightOf (m.setZ y)) := by
    intro y hl hlow
    have hh : ∀ i, i < m.fibers.length → heightOf (m.setZ y) i = comp y i := fun i hi => setZ_heightOf hl hi
    refine ⟨⟨fun i hi => by rw [hh i hi]; exact hlow.1.floor i hi, fun r hr hlt => ?_⟩, ?_⟩
    · obtain ⟨h1, h2, h3⟩ := ho r hr
      rw [hh _ (by omega), hh _ (by omega)]; exact hlow.1.gap r hr hlt
    · intro y' hy i hi
      rw [hh i hi]; exact hlow.2 y' hy i hi
  obtain ⟨F, N0, hF⟩ := C96_exists h ho (setZ_same hzl) (lowest_set z hzl hzlow)
  have hFF : (F.map (fun v => -v)).map (fun v => -v) = F := by simp
  have hdual : IsDual (stackSysOf m net).lp z (F.map (fun v => -v)) :=
    (C96_dual ho (setZ_same hzl) (fun i hi => setZ_heightOf hzl hi) _).2 ⟨N0, by rw [hFF]; exact hF⟩
  obtain ⟨sol, hsol, hopt, hd⟩ := hlin _ ⟨z, _, hz, hdual⟩
  obtain ⟨hl, hlow⟩ := (optimal_iff h ho sol.x).1 hopt
  have hsame := setZ_same (m := m) hl
  have hgood := setZ_good h hl
  have hm' := (matCheck_frame_iff _).2 (Or.inr hgood)
  have hlen := same_length hsame
  have ho' : OverMat (m.setZ sol.x) net.rows := by
    intro r hr; have := ho r hr; rw [hlen]; exact this
  have hs' : stackConstraint (m.setZ sol.x) net = .ok (stackSysOf m net) := by
    rw [stackConstraint_eq hm' hck ho', stackSysOf_same hsame]
  obtain ⟨net', h1, hst⟩ := stackNew_eq (lin := fun p => (lin p).map (·.x)) h hck ho hne none (z := sol.x) (by simp [hsol]) hl
  have hkeep : keep none net' = net' := rfl
  rw [hkeep] at hst
  rw [hper] at h1
  simp only [Option.getD_some] at h1
  obtain ⟨e1, e2⟩ := C12_heights_irrelevant h hgood hw hsame hn h1
  have hplan : planColumns net'.rows = planColumns net.rows := e2.symm
  have hAB := inner_plan hplan
  have hABl : (innerRows net'.rows).length = (innerRows net.rows).length := by simpa using congrArg List.length hAB
  obtain ⟨N, hheld⟩ := (C96_dual ho hsame (fun i hi => setZ_heightOf hl hi) sol.marginals).1 hd
  have hdl : sol.marginals.length = (innerRows net.rows).length := hd.size
  have hheld' : Held (m.setZ sol.x) (innerRows net'.rows) (sol.marginals.map (fun v => -v)) N := held_congr hAB.symm hheld
  have hnn : (stackSysOf m net).C.nrows = (innerRows net.rows).length := rfl
  obtain ⟨hck', ho'', -⟩ := netNew_over hgood h1
  have hload : (loadsOf (stackSysOf m net).C sol.marginals).map (· / (npPi / 4 * (((m.setZ sol.x).fibers.map (fun g => g.l * g.b * g.h)).sum /
        ((m.setZ sol.x).fibers.length : K)))) =
      (List.range (m.setZ sol.x).fibers.length).map (fun i => -pressOn (innerRows net'.rows) (sol.marginals.map (fun v => -v)) i /
        ((∑ i ∈ Finset.range (m.setZ sol.x).fibers.length, weight (m.setZ sol.x) i) / ((m.setZ sol.x).fibers.length : K))) := by
    rw [loadsOf_eq ho hdl, List.map_map, unit_eq, hlen]
    apply List.map_congr_left
    intro i hi
    have hi' := List.mem_range.1 hi
    have b1 := hheld.balance i (by omega)
    have : pressOn (innerRows net'.rows) (sol.marginals.map (fun v => -v)) i = pressOn (innerRows net.rows) (sol.marginals.map (fun v => -v)) i := by
      rw [pressOn_eq hheld'.size, pressOn_eq hheld.size, hABl]
      apply Finset.sum_congr rfl
      intro k _
      have e := congrArg (fun l : List (Int × Int) => (l[k]?).map Prod.fst) hAB
      simp only [List.getElem?_map, Option.map_map] at e
      have e' : ((innerRows net'.rows)[k]?).map (fun r => r.A) = ((innerRows net.rows)[k]?).map (fun r => r.A) := e
      have ea : rowA (innerRows net'.rows) k = rowA (innerRows net.rows) k := by unfold rowA; rw [e']
      rw [ea]
    simp only [Function.comp, this]
  set load := (loadsOf (stackSysOf m net).C sol.marginals).map (· / (npPi / 4 * (((m.setZ sol.x).fibers.map (fun g => g.l * g.b * g.h)).sum /
        ((m.setZ sol.x).fibers.length : K)))) with hloaddef
  have hlne : load ≠ [] := by
    rw [hload]
    intro h0
    have := congrArg List.length h0
    simp only [List.length_map, List.length_range, List.length_nil] at this
    rw [hlen] at this
    exact hne (List.length_eq_zero_iff.1 this)
  obtain ⟨lo, hi, hlo, hhi, m1, m2, m3⟩ := minmax_exists hlne
  refine ⟨{ mat := m.setZ sol.x, stack := net', force := sol.marginals, load := load
            fibers := (((m.setZ sol.x).fibers.zip (load.map (fun v => .fin (if v = hi then 1 else (v - lo) / (hi - lo))))).map
              (fun p => (drawnEnd p.1 (-1), drawnEnd p.1 1, p.2)))
            contacts := (((innerRows net'.rows).zip sol.marginals).filter (fun p => ¬ |p.2| ≤ 1 / 100000000)).map (·.1) },
    lo, hi, N, ?_, hsame, ⟨net, hn, hplan, lowest_set _ hl hlow, sol.x, hsol⟩, ho'', fun r hr => row_heights hgood (same_planar hsame hw) h1 hr, hheld', hload, m1,
    m2, m3, ?_, rfl⟩
  · have hsolve : stackSolution lin (m.setZ sol.x) net = .ok (some (some sol)) := by
      unfold stackSolution
      rw [hm', hck, hs']
      have hne' : (m.setZ sol.x).fibers.length ≠ 0 := by rw [hlen]; simpa using hne
      simp only [Bind.bind, Except.bind, pure, Except.pure, if_pos hne', hsol]
    unfold loadPicture
    rw [hn]
    simp only [Bind.bind, Except.bind]
    rw [hst]
    simp only
    rw [hs', hsolve]
    simp only
    rw [if_neg (by rw [hnn, hdl]; simp), hck']
    simp only
    rw [← hloaddef]
    simp only [hlo, hhi]
    rw [mapM_colors m3]
    simp only
    rw [if_neg (by rw [hABl, hdl]; simp)]
    rfl
  · simp only
    rw [List.zip_map_right, List.map_map]
    rfl

end Fibermat
