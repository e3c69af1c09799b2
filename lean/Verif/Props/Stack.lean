import Verif.Lemmas.Stack
import Verif.Props.NetMesh
import Mathlib.Algebra.Order.BigOperators.Ring.Finset

/-! # C15-C22: stacking of fibers -/

set_option linter.unusedSectionVars false

namespace Fibermat
open Spec
variable {K : Type} [Field K] [LinearOrder K] [IsStrictOrderedRing K]

theorem npPi_pos : (0 : K) < npPi := by unfold npPi; positivity

/-- The optimum of the linear program is the lowest point. -/
theorem optimal_iff {m : Mat K} {net : Net K} (h : GoodMat m) (ho : OverMat m net.rows) (z : List K) :
    Optimal (stackSysOf m net).lp z ↔ z.length = m.fibers.length ∧ Lowest m net.rows (comp z) := by
  have hf : (stackSysOf m net).lp.f.length = m.fibers.length := by simp [StackSys.lp, stackSysOf]
  obtain ⟨S, hS, hgood⟩ := h.size
  have hpos : ∀ i, i < m.fibers.length → 0 < comp (stackSysOf m net).lp.f i := by
    intro i hi
    have hc : comp (stackSysOf m net).lp.f i = _ :=
      comp_map m.fibers (fun g => npPi / 4 * (g.l * g.b * g.h)) (List.getElem?_eq_getElem hi)
    rw [hc]
    have g := hgood _ (List.getElem_mem hi)
    have := npPi_pos (K := K)
    have := g.l; have := g.b; have := g.h
    positivity
  have hobj : ∀ z y : List K, (∀ i, i < m.fibers.length → comp z i ≤ comp y i) →
      objective (stackSysOf m net).lp z ≤ objective (stackSysOf m net).lp y := by
    intro z y hzy
    apply Finset.sum_le_sum
    intro i hi
    rw [hf, Finset.mem_range] at hi
    exact mul_le_mul_of_nonneg_left (hzy i hi) (hpos i hi).le
  constructor
  · rintro ⟨hz, hmin⟩
    obtain ⟨hlen, hno⟩ := (feasible_iff ho z).1 hz
    refine ⟨hlen, hno, ?_⟩
    obtain ⟨y, hy, -⟩ := exists_lowest ho
    have hyl : ((List.range m.fibers.length).map y).length = m.fibers.length := by simp
    have hyc : ∀ i, i < m.fibers.length → comp ((List.range m.fibers.length).map y) i = y i := by
      intro i hi
      rw [comp_map _ _ (a := i)]; simp [hi]
    have hyf : Feasible (stackSysOf m net).lp ((List.range m.fibers.length).map y) := by
      rw [feasible_iff ho]
      refine ⟨hyl, fun i hi => by rw [hyc i hi]; exact hy.1.floor i hi, fun r hr hlt => ?_⟩
      obtain ⟨h1, h2, h3⟩ := ho r hr
      rw [hyc _ (by omega), hyc _ (by omega)]; exact hy.1.gap r hr hlt
    have hle := hmin _ hyf
    -- z = y
    have heq : ∀ i, i < m.fibers.length → y i = comp z i := by
      intro i hi
      apply le_antisymm (hy.2 _ hno i hi)
      by_contra hlt
      have hlt := not_le.1 hlt
      have : objective (stackSysOf m net).lp ((List.range m.fibers.length).map y) < objective (stackSysOf m net).lp z := by
        apply Finset.sum_lt_sum
        · intro j hj
          rw [hf, Finset.mem_range] at hj
          rw [hyc j hj]
          exact mul_le_mul_of_nonneg_left (hy.2 _ hno j hj) (hpos j hj).le
        · refine ⟨i, by rw [hf]; exact Finset.mem_range.2 hi, ?_⟩
          rw [hyc i hi]
          exact mul_lt_mul_of_pos_left hlt (hpos i hi)
      exact absurd hle (not_le.2 this)
    intro w hw i hi
    rw [← heq i hi]; exact hy.2 w hw i hi
  · rintro ⟨hlen, hno, hlow⟩
    refine ⟨(feasible_iff ho z).2 ⟨hlen, hno⟩, ?_⟩
    intro y hy
    obtain ⟨-, hyno⟩ := (feasible_iff ho y).1 hy
    exact hobj z y (hlow _ hyno)

theorem list_eq_of_comp {z y : List K} {n : ℕ} (hz : z.length = n) (hy : y.length = n) (h : ∀ i, i < n → comp z i = comp y i) :
    z = y := by
  apply List.ext_getElem (by rw [hz, hy])
  intro i h1 h2
  have := h i (by omega)
  simpa [comp, List.getD_eq_getElem?_getD, h1, h2] using this

/-- C15: the stacking problem of a net over the fibers of a valid mat is assembled without error; it has a feasible
point, a lower bound, and exactly one optimal solution. -/
theorem C15_unique_optimum {m : Mat K} {net : Net K} (h : GoodMat m) (hn : netCheck net.frame = .ok ())
    (ho : OverMat m net.rows) :
    ∃ sys, stackConstraint m net = .ok sys ∧ (∃ z, Feasible sys.lp z) ∧
      (∃ b, ∀ z, Feasible sys.lp z → b ≤ objective sys.lp z) ∧ ∃! z, Optimal sys.lp z := by
  have hm := (matCheck_frame_iff m).2 (Or.inr h)
  refine ⟨_, stackConstraint_eq hm hn ho, ?_⟩
  obtain ⟨y, hy, -⟩ := exists_lowest ho
  have hyc : ∀ i, i < m.fibers.length → comp ((List.range m.fibers.length).map y) i = y i := by
    intro i hi
    rw [comp_map _ _ (a := i)]; simp [hi]
  have hopt : Optimal (stackSysOf m net).lp ((List.range m.fibers.length).map y) := by
    rw [optimal_iff h ho]
    refine ⟨by simp, ⟨fun i hi => by rw [hyc i hi]; exact hy.1.floor i hi, fun r hr hlt => ?_⟩, ?_⟩
    · obtain ⟨h1, h2, h3⟩ := ho r hr
      rw [hyc _ (by omega), hyc _ (by omega)]; exact hy.1.gap r hr hlt
    · intro w hw i hi
      rw [hyc i hi]; exact hy.2 w hw i hi
  refine ⟨⟨_, hopt.1⟩, ⟨_, hopt.2⟩, _, hopt, ?_⟩
  intro z hz
  obtain ⟨h1, h2⟩ := (optimal_iff h ho z).1 hz
  obtain ⟨h3, h4⟩ := (optimal_iff h ho _).1 hopt
  exact list_eq_of_comp h1 h3 (lowest_unique h2 h4)

/-- C16: the optimal heights are those of one pass over the sorted rows. -/
theorem C16_greedy {m : Mat K} {net : Net K} (h : GoodMat m) (hn : netCheck net.frame = .ok ())
    (ho : OverMat m net.rows) (hs : IncreasingAB net.rows) {sys : StackSys K} (hc : stackConstraint m net = .ok sys)
    {z : List K} (hz : Optimal sys.lp z) :
    z.length = m.fibers.length ∧
      ∀ i, i < m.fibers.length → comp z i = greedy m net.rows (fun i => thick m i / 2) i := by
  have hm := (matCheck_frame_iff m).2 (Or.inr h)
  rw [stackConstraint_eq hm hn ho] at hc
  cases hc
  obtain ⟨h1, h2⟩ := (optimal_iff h ho z).1 hz
  refine ⟨h1, lowest_unique h2 (greedy_lowest ho (hs.imp ?_))⟩
  intro a b hab
  omega

/-! ### `Stack` -/

theorem setZ_get {m : Mat K} {z : List K} (hl : z.length = m.fibers.length) {i : ℕ} {f : Fiber K}
    (hf : m.fibers[i]? = some f) : (m.setZ z).fibers[i]? = some { f with z := comp z i } := by
  obtain ⟨hi, rfl⟩ := List.getElem?_eq_some_iff.1 hf
  have hi' : i < z.length := by omega
  simp [Mat.setZ, comp, List.getElem?_zip_eq_some, hi, hi', List.getD_eq_getElem?_getD, List.zip, List.getElem?_zipWith]

theorem setZ_length {m : Mat K} {z : List K} (hl : z.length = m.fibers.length) :
    (m.setZ z).fibers.length = m.fibers.length := by
  simp [Mat.setZ, hl]

theorem setZ_attrs (m : Mat K) (z : List K) : (m.setZ z).attrs = m.attrs := rfl

theorem setZ_get_inv {m : Mat K} {z : List K} (hl : z.length = m.fibers.length) {i : ℕ} {f : Fiber K}
    (hf : (m.setZ z).fibers[i]? = some f) : ∃ g, m.fibers[i]? = some g ∧ f = { g with z := comp z i } := by
  have hi := (List.getElem?_eq_some_iff.1 hf).1
  rw [setZ_length hl] at hi
  have hg := List.getElem?_eq_getElem hi
  rw [setZ_get hl hg] at hf
  exact ⟨_, hg, (Option.some.inj hf).symm⟩

theorem setZ_good {m : Mat K} (h : GoodMat m) {z : List K} (hl : z.length = m.fibers.length) : GoodMat (m.setZ z) := by
  obtain ⟨S, hS, hf⟩ := h.size
  refine ⟨by rw [setZ_attrs, setZ_length hl]; exact h.n, S, hS, ?_⟩
  intro f hfm
  obtain ⟨i, hi⟩ := List.mem_iff_getElem?.1 hfm
  obtain ⟨g, hg, rfl⟩ := setZ_get_inv hl hi
  obtain ⟨l, b, h, x1, x2, y1, y2, d1, d2, G, E⟩ := hf g (List.mem_of_getElem? hg)
  exact ⟨l, b, h, x1, x2, y1, y2, d1, d2, G, E⟩

theorem setZ_same {m : Mat K} {z : List K} (hl : z.length = m.fibers.length) : SameExceptZ m (m.setZ z) := by
  refine ⟨rfl, ?_⟩
  apply List.ext_getElem?
  intro i
  simp only [List.getElem?_map]
  cases hf : m.fibers[i]? with
  | none =>
    have : (m.setZ z).fibers[i]? = none := by
      rw [List.getElem?_eq_none_iff, setZ_length hl]; exact List.getElem?_eq_none_iff.1 hf
    rw [this]
  | some f => rw [setZ_get hl hf]; rfl

theorem setZ_heightOf {m : Mat K} {z : List K} (hl : z.length = m.fibers.length) {i : ℕ} (hi : i < m.fibers.length) :
    heightOf (m.setZ z) i = comp z i := by
  simp [heightOf, setZ_get hl (List.getElem?_eq_getElem hi)]

theorem setZ_thick {m : Mat K} {z : List K} (hl : z.length = m.fibers.length) (i : ℕ) :
    thick (m.setZ z) i = thick m i := by
  unfold thick
  cases hf : m.fibers[i]? with
  | none =>
    have : (m.setZ z).fibers[i]? = none := by
      rw [List.getElem?_eq_none_iff, setZ_length hl]; exact List.getElem?_eq_none_iff.1 hf
    rw [this]
  | some f => rw [setZ_get hl hf]; rfl

/-- The rows of a stack. -/
def keep (threshold : Option K) (net : Net K) : Net K :=
  match threshold with
  | some t => { net with rows := thresholdRows t net.rows }
  | none => net

theorem keep_attrs (threshold : Option K) (net : Net K) : (keep threshold net).attrs = net.attrs := by
  cases threshold <;> rfl

theorem keep_rows (threshold : Option K) (net : Net K) : ∃ p : NetRow K → Bool, (keep threshold net).rows = net.rows.filter p ∧
    ∀ r ∈ net.rows, r.A = r.B → p r = true := by
  cases threshold with
  | none => exact ⟨fun _ => true, by simp [keep], by simp⟩
  | some t => exact ⟨fun r => decide (|r.zB - r.zA| ≤ t ∨ r.A = r.B), rfl, by intro r _ h; simp [h]⟩

theorem mem_netFrame' {m : Net K} {p : Int × NetRow K} (hp : p ∈ m.frame.rows) : p.2 ∈ m.rows := by
  have e : (m.frame.rows).map Prod.snd = m.rows := by
    simp only [Net.frame, List.map_map]
    exact zipIdx_map_fst' _ 0
  rw [← e]
  exact List.mem_map_of_mem hp

/-- A sublist of the rows of a valid net is a valid net. -/
theorem valid_sublist {rows rows' : List (NetRow K)} {attrs : Attrs K} (hs : rows'.Sublist rows)
    (h : ValidNet (Net.frame ⟨rows, attrs⟩)) : ValidNet (Net.frame ⟨rows', attrs⟩) := by
  have e : ∀ m : Net K, (m.frame.rows).map Prod.snd = m.rows := by
    intro m
    simp only [Net.frame, List.map_map]
    exact zipIdx_map_fst' _ 0
  have hback : ∀ p ∈ (Net.frame ⟨rows', attrs⟩).rows, ∃ q ∈ (Net.frame ⟨rows, attrs⟩).rows, q.2 = p.2 := by
    intro p hp
    have := hs.subset (mem_netFrame' hp)
    have e' := e ⟨rows, attrs⟩
    simp only at e'
    rw [← e'] at this
    obtain ⟨q, hq, he⟩ := List.mem_map.1 this
    exact ⟨q, hq, he⟩
  refine ⟨h.columns, h.attrs, labels_netFrame _, rfl, ?_, ?_, ?_⟩
  · intro p hp
    obtain ⟨q, hq, he⟩ := hback p hp
    rw [← he]; exact h.range q hq
  · have h1 := h.distinct
    unfold NoRepeat at h1 ⊢
    have key : ∀ m : Net K, (m.frame.rows.Pairwise (fun p q => ¬ (p.2.A = q.2.A ∧ p.2.B = q.2.B ∧ p.2.sA = q.2.sA ∧ p.2.sB = q.2.sB))) ↔
        m.rows.Pairwise (fun p q => ¬ (p.A = q.A ∧ p.B = q.B ∧ p.sA = q.sA ∧ p.sB = q.sB)) := by
      intro m
      conv_rhs => rw [← e m]
      rw [List.pairwise_map]
    rw [key] at h1 ⊢
    exact h1.sublist hs
  · intro p hp
    obtain ⟨q, hq, he⟩ := hback p hp
    rw [← he]; exact h.ordered q hq

theorem netCheck_keep {m : Mat K} (h : GoodMat m) {periodic : Bool} {net : Net K} (hn : netNew m periodic = .ok net)
    (threshold : Option K) : netCheck (keep threshold net).frame = .ok () := by
  obtain ⟨net', h1, -, h3, -⟩ := C06_netNew_ok h periodic
  rw [hn] at h1; cases h1
  obtain ⟨p, hp, -⟩ := keep_rows threshold net
  have e : keep threshold net = ⟨net.rows.filter p, net.attrs⟩ := by
    rw [← hp, ← keep_attrs threshold net]
  rw [e]
  exact (C14_netCheck_iff _).2 (Or.inr (valid_sublist List.filter_sublist h3))

/-- What `Stack(mat, net, threshold)` does on a non-empty valid mat. -/
theorem stackNew_eq {lin : Linprog K} {m : Mat K} {net : Net K} (h : GoodMat m) (hn : netCheck net.frame = .ok ())
    (ho : OverMat m net.rows) (hne : m.fibers ≠ []) (threshold : Option K) {z : List K}
    (hz : lin (stackSysOf m net).lp = some z) (hl : z.length = m.fibers.length) :
    ∃ net', netNew (m.setZ z) (net.attrs.periodic.getD true) = .ok net' ∧
      stackNew lin m net threshold = .ok (m.setZ z, keep threshold net') := by
  have hm := (matCheck_frame_iff m).2 (Or.inr h)
  obtain ⟨net', h1, -⟩ := C06_netNew_ok (setZ_good h hl) (net.attrs.periodic.getD true)
  have hck := netCheck_keep (setZ_good h hl) h1 threshold
  refine ⟨net', h1, ?_⟩
  have hne' : m.fibers.length ≠ 0 := by simpa using hne
  have hsolve : stackSolve lin m net = .ok (some (some z)) := by
    unfold stackSolve
    rw [hm, hn, stackConstraint_eq hm hn ho]
    simp [Bind.bind, Except.bind, pure, Except.pure, hne, hz]
  unfold stackNew
  rw [hm, hn, hsolve]
  cases threshold with
  | none =>
    simp only [keep] at hck ⊢
    simp [Bind.bind, Except.bind, pure, Except.pure, hl, h1, hck]
  | some t =>
    simp only [keep] at hck ⊢
    simp [Bind.bind, Except.bind, pure, Except.pure, hl, h1, hck]

theorem stackNew_empty {lin : Linprog K} {m : Mat K} {net : Net K} (h : GoodMat m) (hn : netCheck net.frame = .ok ())
    (ho : OverMat m net.rows) (he : m.fibers = []) (threshold : Option K) :
    stackNew lin m net threshold = .ok (m, net) ∧ net.rows = [] := by
  have hm := (matCheck_frame_iff m).2 (Or.inr h)
  have hrows : net.rows = [] := by
    rw [List.eq_nil_iff_forall_not_mem]
    intro r hr
    have := ho r hr
    rw [he] at this
    simp only [List.length_nil] at this
    omega
  refine ⟨?_, hrows⟩
  have hsolve : stackSolve lin m net = .ok none := by
    unfold stackSolve
    rw [hm, hn, stackConstraint_eq hm hn ho]
    simp [Bind.bind, Except.bind, pure, Except.pure, he]
  unfold stackNew
  rw [hm, hn, hsolve]
  simp [Bind.bind, Except.bind, pure, Except.pure]

/-- The result of `Stack` with a correct solver. -/
theorem stackNew_good {lin : Linprog K} (hlin : GoodLinprog lin) {m : Mat K} {net : Net K} (h : GoodMat m)
    (hn : netCheck net.frame = .ok ()) (ho : OverMat m net.rows) (threshold : Option K) :
    ∃ z : List K, z.length = m.fibers.length ∧ Lowest m net.rows (comp z) ∧
      ((m.fibers = [] ∧ net.rows = [] ∧ stackNew lin m net threshold = .ok (m, net)) ∨
       (m.fibers ≠ [] ∧ ∃ net', netNew (m.setZ z) (net.attrs.periodic.getD true) = .ok net' ∧
         stackNew lin m net threshold = .ok (m.setZ z, keep threshold net'))) := by
  obtain ⟨sys, hs, -, -, z, hz, -⟩ := C15_unique_optimum h hn ho
  have hm := (matCheck_frame_iff m).2 (Or.inr h)
  rw [stackConstraint_eq hm hn ho] at hs
  cases hs
  obtain ⟨y, hy, hopt⟩ := hlin _ ⟨z, hz⟩
  obtain ⟨h1, h2⟩ := (optimal_iff h ho y).1 hopt
  refine ⟨y, h1, h2, ?_⟩
  by_cases he : m.fibers = []
  · obtain ⟨e1, e2⟩ := stackNew_empty (lin := lin) h hn ho he threshold
    exact Or.inl ⟨he, e2, e1⟩
  · exact Or.inr ⟨he, stackNew_eq h hn ho he threshold hy h1⟩

/-- C15: with a correct solver, stacking never raises. -/
theorem C15_stack_ok {lin : Linprog K} (hlin : GoodLinprog lin) {m : Mat K} {net : Net K} (h : GoodMat m)
    (hn : netCheck net.frame = .ok ()) (ho : OverMat m net.rows) (threshold : Option K) :
    ∃ r, stackNew lin m net threshold = .ok r := by
  obtain ⟨z, -, -, ⟨-, -, e⟩ | ⟨-, net', -, e⟩⟩ := stackNew_good hlin h hn ho threshold <;> exact ⟨_, e⟩

theorem setZ_nil {m : Mat K} {z : List K} (he : m.fibers = []) : m.setZ z = m := by
  cases m; simp only at he; subst he; rfl

/-- The heights of the stacked mat are the lowest ones. -/
theorem stack_lowest {lin : Linprog K} (hlin : GoodLinprog lin) {m : Mat K} {net : Net K} (h : GoodMat m)
    (hn : netCheck net.frame = .ok ()) (ho : OverMat m net.rows) {threshold : Option K} {m' : Mat K} {st : Net K}
    (hst : stackNew lin m net threshold = .ok (m', st)) :
    m'.fibers.length = m.fibers.length ∧ Lowest m net.rows (heightOf m') ∧ SameExceptZ m m' ∧ GoodMat m' ∧
      ((m.fibers = [] ∧ net.rows = [] ∧ st = net) ∨ ∃ net', netNew m' (net.attrs.periodic.getD true) = .ok net' ∧
        st = keep threshold net') := by
  obtain ⟨z, hl, hlow, hcase⟩ := stackNew_good hlin h hn ho threshold
  have hm' : m' = m.setZ z ∧ ((m.fibers = [] ∧ net.rows = [] ∧ st = net) ∨
      ∃ net', netNew m' (net.attrs.periodic.getD true) = .ok net' ∧ st = keep threshold net') := by
    rcases hcase with ⟨he, hr, e⟩ | ⟨he, net', h1, e⟩
    · rw [hst] at e; cases e
      exact ⟨(setZ_nil he).symm, Or.inl ⟨he, hr, rfl⟩⟩
    · rw [hst] at e; cases e
      exact ⟨rfl, Or.inr ⟨net', h1, rfl⟩⟩
  obtain ⟨rfl, hcase'⟩ := hm'
  refine ⟨setZ_length hl, ?_, setZ_same hl, setZ_good h hl, hcase'⟩
  have hh : ∀ i, i < m.fibers.length → heightOf (m.setZ z) i = comp z i := fun i hi => setZ_heightOf hl hi
  refine ⟨⟨fun i hi => by rw [hh i hi]; exact hlow.1.floor i hi, fun r hr hlt => ?_⟩, ?_⟩
  · obtain ⟨h1, h2, h3⟩ := ho r hr
    rw [hh _ (by omega), hh _ (by omega)]; exact hlow.1.gap r hr hlt
  · intro y hy i hi
    rw [hh i hi]; exact hlow.2 y hy i hi

theorem netNew_over {m : Mat K} (h : GoodMat m) {periodic : Bool} {net : Net K} (hn : netNew m periodic = .ok net) :
    netCheck net.frame = .ok () ∧ OverMat m net.rows ∧ net.attrs.periodic = some periodic := by
  refine ⟨netCheck_keep h hn none, C06_labels h hn, ?_⟩
  obtain ⟨S, -, -, rfl⟩ := netNew_ok h hn
  rfl

/-- Rows of a planar network are at the heights of the fibers. -/
theorem row_heights {m : Mat K} (h : GoodMat m) (hw : ∀ f ∈ m.fibers, f.w = 0) {periodic : Bool} {net : Net K}
    (hn : netNew m periodic = .ok net) {r : NetRow K} (hr : r ∈ net.rows) :
    r.zA = heightOf m r.A.toNat ∧ r.zB = heightOf m r.B.toNat := by
  obtain ⟨f, g, ⟨a, b, hA, hB, hf, hg⟩, e1, e2, -⟩ := C08_nodes_on_fibers h hn hr
  simp only [pointAt, Prod.mk.injEq] at e1 e2
  simp only [heightOf, hA, hB, Int.toNat_natCast, hf, hg, Option.map_some, Option.getD_some]
  rw [e1.2.2, e2.2.2, hw f (List.mem_of_getElem? hf), hw g (List.mem_of_getElem? hg)]
  simp

theorem same_planar {m m' : Mat K} (hz : SameExceptZ m m') (hw : ∀ f ∈ m.fibers, f.w = 0) : ∀ f ∈ m'.fibers, f.w = 0 := by
  intro f hf
  have := List.mem_map_of_mem (f := fun f : Fiber K => { f with z := 0 }) hf
  rw [← hz.2] at this
  obtain ⟨g, hg, e⟩ := List.mem_map.1 this
  have e2 := congrArg Fiber.w e
  exact e2.symm.trans (hw g hg)

/-- C18: without threshold, stacking a planar mat only changes heights. -/
theorem C18_vertical {lin : Linprog K} (hlin : GoodLinprog lin) {m : Mat K} (h : GoodMat m)
    (hw : ∀ f ∈ m.fibers, f.w = 0) {periodic : Bool} {net : Net K} (hn : netNew m periodic = .ok net) {m' : Mat K}
    {st : Net K} (hst : stackNew lin m net none = .ok (m', st)) :
    SameExceptZ m m' ∧ st.attrs = net.attrs ∧ planColumns st.rows = planColumns net.rows ∧
      ∀ r ∈ st.rows, r.zA = heightOf m' r.A.toNat ∧ r.zB = heightOf m' r.B.toNat := by
  obtain ⟨hck, ho, hper⟩ := netNew_over h hn
  obtain ⟨hlen, hlow, hsame, hgood, hcase⟩ := stack_lowest hlin h hck ho hst
  refine ⟨hsame, ?_⟩
  rcases hcase with ⟨he, hr, rfl⟩ | ⟨net', h1, rfl⟩
  · exact ⟨rfl, rfl, by simp [hr]⟩
  · rw [hper] at h1
    obtain ⟨e1, e2⟩ := C12_heights_irrelevant h hgood hw hsame hn h1
    exact ⟨e1.symm, e2.symm, fun r hr => row_heights hgood (same_planar hsame hw) h1 hr⟩

theorem plan_mem {rows rows' : List (NetRow K)} (h : planColumns rows = planColumns rows') {r : NetRow K} (hr : r ∈ rows) :
    ∃ q ∈ rows', q.A = r.A ∧ q.B = r.B := by
  have := List.mem_map_of_mem (f := fun r : NetRow K => (r.A, r.B, r.sA, r.sB, r.xA, r.yA, r.xB, r.yB)) hr
  rw [planColumns, planColumns] at h
  rw [h] at this
  obtain ⟨q, hq, e⟩ := List.mem_map.1 this
  simp only [Prod.mk.injEq] at e
  exact ⟨q, hq, e.1, e.2.1⟩

/-- C17: after stacking a planar mat, fibers overlap neither the floor nor connected fibers. -/
theorem C17_no_overlap {lin : Linprog K} (hlin : GoodLinprog lin) {m : Mat K} (h : GoodMat m)
    (hw : ∀ f ∈ m.fibers, f.w = 0) {periodic : Bool} {net : Net K} (hn : netNew m periodic = .ok net)
    {threshold : Option K} {m' : Mat K} {st : Net K} (hst : stackNew lin m net threshold = .ok (m', st)) :
    (∀ f ∈ m'.fibers, f.h / 2 ≤ f.z) ∧
    ∀ r ∈ st.rows, r.A < r.B → (thick m' r.A.toNat + thick m' r.B.toNat) / 2 ≤ r.zB - r.zA := by
  obtain ⟨hck, ho, hper⟩ := netNew_over h hn
  obtain ⟨hlen, hlow, hsame, hgood, hcase⟩ := stack_lowest hlin h hck ho hst
  have hthick : ∀ i, thick m' i = thick m i := by
    intro i
    have e := congrArg (fun l : List (Fiber K) => (l[i]?).map (·.h)) hsame.2
    simp only [List.getElem?_map, Option.map_map] at e
    simp only [thick]
    have e' : (m.fibers[i]?).map (·.h) = (m'.fibers[i]?).map (·.h) := e
    rw [e']
  constructor
  · intro f hf
    obtain ⟨i, hi⟩ := List.mem_iff_getElem?.1 hf
    have h1 := hlow.1.floor i (by rw [← hlen]; exact (List.getElem?_eq_some_iff.1 hi).1)
    rw [← hthick, thick_of hi] at h1
    simpa [heightOf, hi] using h1
  · intro r hr hlt
    rcases hcase with ⟨he, hr', rfl⟩ | ⟨net', h1, rfl⟩
    · rw [hr'] at hr; simp at hr
    · rw [hper] at h1
      obtain ⟨p, hp, -⟩ := keep_rows threshold net'
      rw [hp] at hr
      have hrn := List.mem_of_mem_filter hr
      obtain ⟨e1, e2⟩ := C12_heights_irrelevant h hgood hw hsame hn h1
      obtain ⟨q, hq, hA, hB⟩ := plan_mem (rows := net'.rows) (rows' := net.rows) e2.symm hrn
      obtain ⟨z1, z2⟩ := row_heights hgood (same_planar hsame hw) h1 hrn
      rw [z1, z2, hthick, hthick, ← hA, ← hB]
      exact hlow.1.gap q hq (by omega)

/-- C19: the threshold keeps exactly the close connections and the fiber ends, in the same order. -/
theorem C19_threshold {lin : Linprog K} {m : Mat K} {net : Net K} (h : GoodMat m) (hn : netCheck net.frame = .ok ())
    (ho : OverMat m net.rows) (t : K) {m' : Mat K} {full : Net K} (hfull : stackNew lin m net none = .ok (m', full)) :
    ∃ st, stackNew lin m net (some t) = .ok (m', st) ∧ st.attrs = full.attrs ∧ st.rows.Sublist full.rows ∧
      (∀ r ∈ full.rows, r ∈ st.rows ↔ (r.A = r.B ∨ |r.zB - r.zA| ≤ t)) ∧ LabelsInOrder st.frame.rows ∧
      netCheck st.frame = .ok () := by
  by_cases he : m.fibers = []
  · obtain ⟨e1, e2⟩ := stackNew_empty (lin := lin) h hn ho he (some t)
    obtain ⟨e1', -⟩ := stackNew_empty (lin := lin) h hn ho he none
    rw [hfull] at e1'; cases e1'
    exact ⟨_, e1, rfl, List.Sublist.refl _, by simp [e2], labels_netFrame _, hn⟩
  · -- the solver returned a vector
    have hm := (matCheck_frame_iff m).2 (Or.inr h)
    have hne' : m.fibers.length ≠ 0 := by simpa using he
    have hsolve : stackSolve lin m net = .ok (some (lin (stackSysOf m net).lp)) := by
      unfold stackSolve
      rw [hm, hn, stackConstraint_eq hm hn ho]
      simp [Bind.bind, Except.bind, pure, Except.pure, he]
    cases hz : lin (stackSysOf m net).lp with
    | none =>
      unfold stackNew at hfull
      rw [hm, hn, hsolve, hz] at hfull
      simp [Bind.bind, Except.bind, throw, throwThe, MonadExceptOf.throw] at hfull
    | some z =>
      by_cases hl : z.length = m.fibers.length
      · obtain ⟨net1, h1, e1⟩ := stackNew_eq h hn ho he none hz hl
        obtain ⟨net2, h2, e2⟩ := stackNew_eq h hn ho he (some t) hz hl
        rw [h1] at h2; cases h2
        rw [hfull] at e1; cases e1
        refine ⟨_, e2, keep_attrs _ _, List.filter_sublist, ?_, labels_netFrame _, netCheck_keep (setZ_good h hl) h1 _⟩
        intro r hr
        simp only [keep] at hr ⊢
        rw [thresholdRows, List.mem_filter]
        simp only [hr, true_and, decide_eq_true_eq]
        exact or_comm
      · unfold stackNew at hfull
        rw [hm, hn, hsolve, hz] at hfull
        simp [Bind.bind, Except.bind, throw, throwThe, MonadExceptOf.throw, hl] at hfull

/-- C20: every stacked fiber lies on the floor or on a lower connected fiber. -/
theorem C20_supported {lin : Linprog K} (hlin : GoodLinprog lin) {m : Mat K} {net : Net K} (h : GoodMat m)
    (hn : netCheck net.frame = .ok ()) (ho : OverMat m net.rows) {threshold : Option K} {m' : Mat K} {st : Net K}
    (hst : stackNew lin m net threshold = .ok (m', st)) :
    ∀ i, i < m.fibers.length → Supported m net.rows (heightOf m') i := by
  obtain ⟨-, hlow, -⟩ := stack_lowest hlin h hn ho hst
  obtain ⟨y, hy, hsup⟩ := exists_lowest ho
  have heq := lowest_unique hlow hy
  intro i hi
  rcases hsup i hi with e | ⟨r, hr, h1, h2, h3⟩
  · exact Or.inl (by rw [heq i hi]; exact e)
  · refine Or.inr ⟨r, hr, h1, h2, ?_⟩
    obtain ⟨q1, q2, q3⟩ := ho r hr
    rw [heq i hi, heq _ (by omega)]; exact h3

theorem same_thick {m m' : Mat K} (hsame : SameExceptZ m m') (i : ℕ) : thick m' i = thick m i := by
  have e := congrArg (fun l : List (Fiber K) => (l[i]?).map (·.h)) hsame.2
  simp only [List.getElem?_map, Option.map_map] at e
  simp only [thick]
  have e' : (m.fibers[i]?).map (·.h) = (m'.fibers[i]?).map (·.h) := e
  rw [e']

theorem same_length {m m' : Mat K} (hsame : SameExceptZ m m') : m'.fibers.length = m.fibers.length := by
  have e := congrArg List.length hsame.2
  simpa using e.symm

/-- Two mats that differ only in heights, with the same heights, are equal. -/
theorem same_eq {m m' : Mat K} (hsame : SameExceptZ m m') (hz : ∀ i, i < m.fibers.length → heightOf m i = heightOf m' i) :
    m = m' := by
  have hfib : m.fibers = m'.fibers := by
    apply List.ext_getElem (same_length hsame).symm
    intro i h1 h2
    have e := congrArg (fun l : List (Fiber K) => l[i]?) hsame.2
    simp only [List.getElem?_map, List.getElem?_eq_getElem h1, List.getElem?_eq_getElem h2, Option.map_some,
      Option.some.injEq] at e
    have ez := hz i h1
    simp only [heightOf, List.getElem?_eq_getElem h1, List.getElem?_eq_getElem h2, Option.map_some, Option.getD_some] at ez
    generalize m.fibers[i] = f at e ez
    generalize m'.fibers[i] = g at e ez
    cases f; cases g
    simp only [Fiber.mk.injEq] at e ez ⊢
    simp only [e, ez, and_self]
  cases m; cases m'
  simp only [Mat.mk.injEq]
  exact ⟨hfib, hsame.1⟩

theorem same_trans {m m' m'' : Mat K} (h : SameExceptZ m m') (h' : SameExceptZ m' m'') : SameExceptZ m m'' :=
  ⟨h.1.trans h'.1, h.2.trans h'.2⟩

theorem same_symm {m m' : Mat K} (h : SameExceptZ m m') : SameExceptZ m' m := ⟨h.1.symm, h.2.symm⟩

theorem noOverlap_plan {m m' : Mat K} (hsame : SameExceptZ m m') {rows rows' : List (NetRow K)}
    (hp : planColumns rows = planColumns rows') {z : ℕ → K} (h : NoOverlap m rows z) : NoOverlap m' rows' z := by
  refine ⟨fun i hi => ?_, fun r hr hlt => ?_⟩
  · rw [same_thick hsame]; exact h.floor i (by rw [← same_length hsame]; exact hi)
  · obtain ⟨q, hq, hA, hB⟩ := plan_mem hp.symm hr
    rw [same_thick hsame, same_thick hsame, ← hA, ← hB]
    exact h.gap q hq (by omega)

theorem lowest_plan {m m' : Mat K} (hsame : SameExceptZ m m') {rows rows' : List (NetRow K)}
    (hp : planColumns rows = planColumns rows') {z : ℕ → K} (h : Lowest m rows z) : Lowest m' rows' z := by
  refine ⟨noOverlap_plan hsame hp h.1, ?_⟩
  intro y hy i hi
  exact h.2 y (noOverlap_plan (same_symm hsame) hp.symm hy) i (by rw [← same_length hsame]; exact hi)

/-- C21: stacking does not depend on the initial heights of a planar mat. -/
theorem C21_initial_heights {lin : Linprog K} (hlin : GoodLinprog lin) {m1 m2 : Mat K} (h1 : GoodMat m1) (h2 : GoodMat m2)
    (hw : ∀ f ∈ m1.fibers, f.w = 0) (hsame : SameExceptZ m1 m2) {periodic : Bool} {net1 net2 : Net K}
    (hn1 : netNew m1 periodic = .ok net1) (hn2 : netNew m2 periodic = .ok net2) {threshold : Option K}
    {m1' m2' : Mat K} {st1 st2 : Net K} (hst1 : stackNew lin m1 net1 threshold = .ok (m1', st1))
    (hst2 : stackNew lin m2 net2 threshold = .ok (m2', st2)) : m1' = m2' ∧ st1 = st2 := by
  obtain ⟨hck1, ho1, hper1⟩ := netNew_over h1 hn1
  obtain ⟨hck2, ho2, hper2⟩ := netNew_over h2 hn2
  obtain ⟨hlen1, hlow1, hsame1, hgood1, hcase1⟩ := stack_lowest hlin h1 hck1 ho1 hst1
  obtain ⟨hlen2, hlow2, hsame2, hgood2, hcase2⟩ := stack_lowest hlin h2 hck2 ho2 hst2
  obtain ⟨ea, ep⟩ := C12_heights_irrelevant h1 h2 hw hsame hn1 hn2
  have hm : m1' = m2' := by
    refine same_eq (same_trans (same_symm hsame1) (same_trans hsame hsame2)) ?_
    intro i hi
    rw [hlen1, ← same_length hsame] at hi
    exact lowest_unique (lowest_plan hsame ep hlow1) hlow2 i hi
  refine ⟨hm, ?_⟩
  subst hm
  rw [hper1] at hcase1
  rw [hper2] at hcase2
  have hemp : m1.fibers = [] ↔ m2.fibers = [] := by
    rw [← List.length_eq_zero_iff, ← List.length_eq_zero_iff, same_length hsame]
  rcases hcase1 with ⟨he1, hr1, rfl⟩ | ⟨n1, hn1', rfl⟩ <;> rcases hcase2 with ⟨he2, hr2, rfl⟩ | ⟨n2, hn2', rfl⟩
  · cases st1; cases st2; simp only at hr1 hr2 ea; rw [hr1, hr2, ea]
  · -- both are empty
    obtain ⟨e1, e2⟩ := stackNew_empty (lin := lin) h2 hck2 ho2 (hemp.1 he1) threshold
    rw [hst2] at e1
    simp only [Except.ok.injEq, Prod.mk.injEq] at e1
    rw [e1.2]
    cases st1; cases net2; simp only at hr1 e2 ea; rw [hr1, e2, ea]
  · obtain ⟨e1, e2⟩ := stackNew_empty (lin := lin) h1 hck1 ho1 (hemp.2 he2) threshold
    rw [hst1] at e1
    simp only [Except.ok.injEq, Prod.mk.injEq] at e1
    rw [e1.2]
    cases st2; cases net1; simp only at hr2 e2 ea; rw [hr2, e2, ea]
  · rw [hn1'] at hn2'; cases hn2'; rfl

/-- C21: stacking a stacked planar mat changes nothing. -/
theorem C21_idempotent {lin : Linprog K} (hlin : GoodLinprog lin) {m : Mat K} (h : GoodMat m)
    (hw : ∀ f ∈ m.fibers, f.w = 0) {periodic : Bool} {net : Net K} (hn : netNew m periodic = .ok net) {m' : Mat K}
    {st : Net K} (hst : stackNew lin m net none = .ok (m', st)) : stackNew lin m' st none = .ok (m', st) := by
  obtain ⟨hck, ho, hper⟩ := netNew_over h hn
  obtain ⟨hlen, hlow, hsame, hgood, hcase⟩ := stack_lowest hlin h hck ho hst
  rcases hcase with ⟨he, hr, rfl⟩ | ⟨net', hn', hk⟩
  · obtain ⟨e1, e2⟩ := stackNew_empty (lin := lin) h hck ho he none
    rw [hst] at e1
    simp only [Except.ok.injEq, Prod.mk.injEq, and_true] at e1
    rw [e1]
    rw [e1] at hst; exact hst
  · rw [hper] at hn'
    simp only [Option.getD_some] at hn'
    change st = net' at hk
    subst hk
    obtain ⟨hck', ho', hper'⟩ := netNew_over hgood hn'
    obtain ⟨r, hr⟩ := C15_stack_ok hlin hgood hck' ho' none
    obtain ⟨e1, e2⟩ := C21_initial_heights hlin hgood h (same_planar hsame hw) (same_symm hsame) hn' hn
      (show stackNew lin m' st none = .ok (r.1, r.2) from hr) hst
    rw [hr]
    rw [show r = (r.1, r.2) from rfl, e1, e2]

/-- C22: the top of a stacked fiber is not above the total thickness of the fibers up to it. -/
theorem C22_height_bound {lin : Linprog K} (hlin : GoodLinprog lin) {m : Mat K} {net : Net K} (h : GoodMat m)
    (hn : netCheck net.frame = .ok ()) (ho : OverMat m net.rows) {threshold : Option K} {m' : Mat K} {st : Net K}
    (hst : stackNew lin m net threshold = .ok (m', st)) {i : ℕ} (hi : i < m.fibers.length) :
    heightOf m' i + thick m i / 2 ≤ ∑ k ∈ Finset.range (i + 1), thick m k := by
  obtain ⟨-, hlow, -⟩ := stack_lowest hlin h hn ho hst
  obtain ⟨S, hS, hgood⟩ := h.size
  have hpos : ∀ k, 0 ≤ thick m k := by
    intro k
    cases hk : m.fibers[k]? with
    | none => simp [thick, hk]
    | some f => rw [thick_of hk]; exact (hgood f (List.mem_of_getElem? hk)).h.le
  have hfeas : NoOverlap m net.rows (fun i => ∑ k ∈ Finset.range i, thick m k + thick m i / 2) := by
    refine ⟨fun i _ => ?_, fun r hr hlt => ?_⟩
    · have : 0 ≤ ∑ k ∈ Finset.range i, thick m k := Finset.sum_nonneg (fun k _ => hpos k)
      linarith
    · obtain ⟨h1, h2, h3⟩ := ho r hr
      have hle : r.A.toNat + 1 ≤ r.B.toNat := by omega
      have hsub : ∑ k ∈ Finset.range (r.A.toNat + 1), thick m k ≤ ∑ k ∈ Finset.range r.B.toNat, thick m k :=
        Finset.sum_le_sum_of_subset_of_nonneg (Finset.range_mono hle) (fun k _ _ => hpos k)
      rw [Finset.sum_range_succ] at hsub
      linarith
  have := hlow.2 _ hfeas i hi
  rw [Finset.sum_range_succ]
  linarith

/-- C22: adding connections never lowers a fiber. -/
theorem C22_monotone {lin : Linprog K} (hlin : GoodLinprog lin) {m : Mat K} {net1 net2 : Net K} (h : GoodMat m)
    (hn1 : netCheck net1.frame = .ok ()) (ho1 : OverMat m net1.rows) (hn2 : netCheck net2.frame = .ok ())
    (ho2 : OverMat m net2.rows) (hsub : ∀ r ∈ net1.rows, r ∈ net2.rows) {t1 t2 : Option K} {m1 m2 : Mat K}
    {st1 st2 : Net K} (hst1 : stackNew lin m net1 t1 = .ok (m1, st1)) (hst2 : stackNew lin m net2 t2 = .ok (m2, st2))
    {i : ℕ} (hi : i < m.fibers.length) : heightOf m1 i ≤ heightOf m2 i := by
  obtain ⟨-, hlow1, -⟩ := stack_lowest hlin h hn1 ho1 hst1
  obtain ⟨-, hlow2, -⟩ := stack_lowest hlin h hn2 ho2 hst2
  exact hlow1.2 _ ⟨hlow2.1.floor, fun r hr => hlow2.1.gap r (hsub r hr)⟩ i hi

/-- C27: `Mesh(Stack(mat, net, threshold))` never raises. -/
theorem C27_mesh_of_stack {lin : Linprog K} (hlin : GoodLinprog lin) {m : Mat K} (h : GoodMat m) {periodic : Bool}
    {net : Net K} (hn : netNew m periodic = .ok net) (threshold : Option K) :
    ∃ m' st mesh, stackNew lin m net threshold = .ok (m', st) ∧ meshNew st = .ok mesh ∧ meshInit st = .ok mesh := by
  obtain ⟨hck, ho, hper⟩ := netNew_over h hn
  obtain ⟨⟨m', st⟩, hst⟩ := C15_stack_ok hlin h hck ho threshold
  obtain ⟨-, -, -, hgood, hcase⟩ := stack_lowest hlin h hck ho hst
  rcases hcase with ⟨he, hr, rfl⟩ | ⟨net', h1, rfl⟩
  · obtain ⟨mesh, e1, e2⟩ := meshNew_of_ended hck (netNew_ended h hn)
    exact ⟨m', st, mesh, hst, e1, e2⟩
  · obtain ⟨p, hp, hpe⟩ := keep_rows threshold net'
    have hend := (netNew_ended hgood h1).filter p hpe
    rw [← hp] at hend
    obtain ⟨mesh, e1, e2⟩ := meshNew_of_ended (netCheck_keep hgood h1 threshold) hend
    exact ⟨m', _, mesh, hst, e1, e2⟩

/-! ### Non-vacuity -/

/-- There is a correct solver. -/
theorem exists_goodLinprog : ∃ lin : Linprog K, GoodLinprog lin := by
  classical
  refine ⟨fun p => if h : ∃ z, Optimal p z then some h.choose else none, fun p h => ?_⟩
  exact ⟨h.choose, by simp [h], h.choose_spec⟩

/-- C15-C22: stacking the three fibers of the example, with any correct solver: fiber 1 (thickness 2) and the image of
fiber 2 (thickness 1) both lie on fiber 0. -/
theorem crossMat_stack {lin : Linprog ℚ} (hlin : GoodLinprog lin) (threshold : Option ℚ) :
    ∃ net m' st, netNew crossMat true = .ok net ∧ stackNew lin crossMat net threshold = .ok (m', st) ∧
      heightOf m' 0 = 1 / 2 ∧ heightOf m' 1 = 2 ∧ heightOf m' 2 = 3 / 2 := by
  obtain ⟨net, hn, hinc, -⟩ := C06_netNew_ok crossMat_good true
  obtain ⟨hck, ho, -⟩ := netNew_over crossMat_good hn
  obtain ⟨⟨m', st⟩, hst⟩ := C15_stack_ok hlin crossMat_good hck ho threshold
  obtain ⟨-, hlow, -⟩ := stack_lowest hlin crossMat_good hck ho hst
  have hg := lowest_unique hlow (greedy_lowest ho ((C06_increasing crossMat_good hn).imp (by intro a b hab; omega)))
  have hgr : ((netNew crossMat true).toOption.map (fun n =>
      (List.range 3).map (greedy crossMat n.rows (fun i => thick crossMat i / 2)))) = some [1 / 2, 2, 3 / 2] := by
    decide +kernel
  rw [hn] at hgr
  simp [Except.toOption, List.range_succ] at hgr
  exact ⟨net, m', st, hn, hst, by rw [hg 0 (by decide), hgr.1]; norm_num, by rw [hg 1 (by decide), hgr.2.1],
    by rw [hg 2 (by decide), hgr.2.2]⟩

/-- C16: the sweep on the example. -/
example : ((netNew crossMat true).toOption.map (fun n =>
      (List.range 3).map (greedy crossMat n.rows (fun i => thick crossMat i / 2)))) = some [1 / 2, 2, 3 / 2] := by
    decide +kernel

/-- C19: a threshold of one unit drops the connection between fibers 0 and 1 and keeps the one between 0 and 2. -/
example : ((netNew crossMat true).toOption.bind (fun net =>
      (stackNew (fun _ => some [1 / 2, 2, 3 / 2]) crossMat net (some 1)).toOption.map
        (fun r => r.2.rows.map (fun r => (r.A, r.B))))) = some [(0, 0), (0, 2), (1, 1), (2, 2)] := by decide +kernel

end Fibermat
