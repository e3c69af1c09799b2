import Verif.Props.Units
import Verif.Props.Pipeline
import Verif.Model.Chain

/-! # The whole chain in other units (C81) -/

set_option linter.unusedSectionVars false
set_option linter.unusedSimpArgs false

namespace Fibermat
variable {K : Type} [Field K] [LinearOrder K] [IsStrictOrderedRing K]
open Spec

/-! ### Nets -/

theorem maxLength_in {α : K} (hα : 0 < α) (μ : K) (fs : List (Fiber K)) : maxLength (fs.map (fiberIn α μ)) = α * maxLength fs := by
  cases fs with
  | nil => simp [maxLength]
  | cons f t =>
    simp only [List.map_cons, maxLength]
    have : ∀ a : K, (t.map (fiberIn α μ)).foldl (fun m g => max m g.l) (α * a) = α * t.foldl (fun m g => max m g.l) a := by
      induction t with
      | nil => intro a; rfl
      | cons g t ih =>
        intro a
        simp only [List.map_cons, List.foldl_cons]
        rw [show (fiberIn α μ g).l = α * g.l from rfl, ← mul_max_of_nonneg _ _ hα.le, ih]
    exact this f.l

/-- A labelled fiber in other units. -/
def labelIn (α μ : K) (p : ℕ × Fiber K) : ℕ × Fiber K := (p.1, fiberIn α μ p.2)

theorem filter_map_in {α β : Type} (f : α → β) (g : α → α) (g' : β → β) (p : α → Bool) (p' : β → Bool) (hp : ∀ a, p' (f a) = p a)
    (hg : ∀ a, g' (f a) = f (g a)) (l : List α) : ((l.map f).filter p').map g' = ((l.filter p).map g).map f := by
  rw [List.filter_map, List.map_map, List.map_map]
  have : p' ∘ f = p := funext hp
  rw [this]
  exact List.map_congr_left (fun a _ => hg a)

theorem extFibers_in {α : K} (hα : 0 < α) (μ : K) (periodic : Bool) (S : K) (fs : List (Fiber K)) :
    extFibers periodic (α * S) (fs.map (fiberIn α μ)) = (extFibers periodic S fs).map (labelIn α μ) := by
  have hbase : ((fs.map (fiberIn α μ)).zipIdx.map (fun p => (p.2, p.1))) = (fs.zipIdx.map (fun p => (p.2, p.1))).map (labelIn α μ) := by
    rw [List.zipIdx_map, List.map_map, List.map_map]
    rfl
  unfold extFibers
  split
  · unfold periodicFibers
    simp only [hbase, maxLength_in hα, List.map_append]
    have hlt : ∀ a b : K, (α * a < α * b) ↔ a < b := fun a b => mul_lt_mul_iff_right₀ hα
    congr 1
    · congr 1
      · congr 1
        apply filter_map_in
        · intro a
          rw [decide_eq_decide]
          simp only [labelIn, fiberIn]
          rw [← hlt a.2.x, mul_add, mul_neg, mul_div_assoc]
        · intro a
          simp only [labelIn, fiberIn, mul_add]
      · apply filter_map_in
        · intro a
          rw [decide_eq_decide]
          simp only [labelIn, fiberIn]
          rw [← hlt a.2.y, mul_add, mul_neg, mul_div_assoc]
        · intro a
          simp only [labelIn, fiberIn, mul_add]
    · apply filter_map_in
      · intro a
        rw [decide_eq_decide]
        simp only [labelIn, fiberIn, gt_iff_lt]
        rw [← hlt _ a.2.x, ← hlt _ a.2.y, mul_sub, mul_div_assoc]
      · intro a
        simp only [labelIn, fiberIn, mul_sub]
  · exact hbase

/-- A candidate connection in other units. -/
def candIn (α : K) (c : Cand K) : Cand K := ⟨c.A, c.B, α * c.sA, α * c.sB⟩

theorem nearby_in {α : K} (hα : 0 < α) (μ : K) (f g : Fiber K) : nearby (fiberIn α μ f) (fiberIn α μ g) = nearby f g := by
  unfold nearby
  rw [← Bool.decide_and, ← Bool.decide_and, decide_eq_decide]
  simp only [fiberIn]
  have h1 : (α * f.l + α * g.l) / 2 = α * ((f.l + g.l) / 2) := by ring
  have h2 : (α * f.x - α * g.x) ^ 2 + (α * f.y - α * g.y) ^ 2 = α ^ 2 * ((f.x - g.x) ^ 2 + (f.y - g.y) ^ 2) := by ring
  rw [h1, h2, mul_pow, mul_pos_iff_of_pos_left hα, mul_lt_mul_iff_right₀ (by positivity : 0 < α ^ 2)]

theorem abscissae_in (α μ : K) (f g : Fiber K) :
    abscissae (fiberIn α μ f) (fiberIn α μ g) = (α * (abscissae f g).1, α * (abscissae f g).2) := by
  have hu : ∀ e e' : Fiber K, dotU (fiberIn α μ e) (fiberIn α μ e') = dotU e e' := fun e e' => rfl
  have hr : ∀ e : Fiber K, dotR (fiberIn α μ e) (fiberIn α μ f) (fiberIn α μ g) = α * dotR e f g := by
    intro e
    simp only [dotR, fiberIn]
    ring
  have hd : detU (fiberIn α μ f) (fiberIn α μ g) = detU f g := rfl
  unfold abscissae
  simp only [hu, hr, hd]
  split
  · simp only [Prod.mk.injEq]
    constructor <;> ring
  · simp only [Prod.mk.injEq, fiberIn]
    constructor <;> ring

theorem candidate_in {α : K} (hα : 0 < α) (μ : K) (p : (ℕ × Fiber K) × (ℕ × Fiber K)) :
    candidate (Prod.map (labelIn α μ) (labelIn α μ) p) = (candidate p).map (candIn α) := by
  obtain ⟨⟨a, f⟩, ⟨b, g⟩⟩ := p
  have h1 : ∀ s : K, ∀ l : K, |α * s| < α * l / 2 ↔ |s| < l / 2 := by
    intro s l
    rw [abs_mul, abs_of_pos hα, mul_div_assoc, mul_lt_mul_iff_right₀ hα]
  unfold candidate
  simp only [Prod.map, labelIn, nearby_in hα, abscissae_in]
  have e1 : (fiberIn α μ f).l = α * f.l := rfl
  have e2 : (fiberIn α μ g).l = α * g.l := rfl
  rw [e1, e2]
  simp only [h1]
  split
  · split
    · split <;> rfl
    · rfl
  · rfl

theorem dropDupAux_map {α β γ : Type} [DecidableEq γ] (f : α → β) (key : α → γ) (key' : β → γ) (h : ∀ a, key' (f a) = key a)
    (seen : List γ) (l : List α) : dropDupAux key' seen (l.map f) = (dropDupAux key seen l).map f := by
  induction l generalizing seen with
  | nil => rfl
  | cons a t ih =>
    simp only [List.map_cons, dropDupAux, h]
    split
    · exact ih seen
    · rw [ih]; rfl

theorem netCands_in {α : K} (hα : 0 < α) (μ : K) (periodic : Bool) (S : K) (fs : List (Fiber K)) :
    netCands periodic (α * S) (fs.map (fiberIn α μ)) = (netCands periodic S fs).map (candIn α) := by
  unfold netCands sortDedup dropDup
  rw [extFibers_in hα, triu_map, List.filterMap_map]
  have e : (candidate ∘ fun p : (ℕ × Fiber K) × (ℕ × Fiber K) => (labelIn α μ p.1, labelIn α μ p.2)) = fun p : (ℕ × Fiber K) × (ℕ × Fiber K) => (candidate p).map (candIn α) :=
    funext (fun p => candidate_in hα μ p)
  rw [e, ← List.map_filterMap, insertionSort_map (candIn α) candLe candLe (fun a b => Iff.rfl)]
  exact dropDupAux_map (candIn α) (fun c : Cand K => (c.A, c.B)) (fun c : Cand K => (c.A, c.B)) (fun a => rfl) [] _

theorem netRow_in (α μ : K) (fs : List (Fiber K)) (c : Cand K) :
    netRow (fs.map (fiberIn α μ)) (candIn α c) = (unitMap α).row (netRow fs c) := by
  have hz : fiberIn α μ Fiber.zero = Fiber.zero := by
    simp only [fiberIn, Fiber.zero, mul_zero, WithTop.map_top]
  have hg : ∀ i, (fs.map (fiberIn α μ)).getD i Fiber.zero = fiberIn α μ (fs.getD i Fiber.zero) := by
    intro i
    simp only [List.getD_eq_getElem?_getD, List.getElem?_map]
    cases fs[i]? with
    | none => exact hz.symm
    | some f => rfl
  unfold netRow
  simp only [candIn, hg, CoordMap.row, unitMap, fiberIn]
  congr 1 <;> ring

/-- The net in other units. -/
theorem C81_net {m : Mat K} (h : GoodMat m) {α μ : K} (hα : 0 < α) (hμ : 0 < μ) {periodic : Bool} {net : Net K}
    (hn : netNew m periodic = .ok net) : netNew (matIn α μ m) periodic = .ok (netIn α net) := by
  obtain ⟨S, hS, -, rfl⟩ := netNew_ok h hn
  have hS' : (matIn α μ m).attrs.size = some (α * S) := by simp [matIn, hS]
  rw [netNew_eq (goodMat_in hα hμ h) hS']
  congr 1
  simp only [netIn, Net.mk.injEq]
  refine ⟨?_, rfl⟩
  show (netCands periodic (α * S) (m.fibers.map (fiberIn α μ))).map (netRow (m.fibers.map (fiberIn α μ))) = _
  rw [netCands_in hα, List.map_map, List.map_map]
  refine List.map_congr_left ?_
  intro c _
  exact netRow_in α μ m.fibers c

/-! ### Stacks -/

theorem thick_in (α μ : K) (m : Mat K) (i : ℕ) : thick (matIn α μ m) i = α * thick m i := by
  unfold thick matIn
  simp only [List.getElem?_map]
  cases m.fibers[i]? with
  | none => simp
  | some f => rfl

theorem noOverlap_in {α : K} (hα : 0 < α) (μ : K) {m : Mat K} {net : Net K} (y : ℕ → K) :
    NoOverlap (matIn α μ m) (netIn α net).rows (fun i => α * y i) ↔ NoOverlap m net.rows y := by
  have hlen : (matIn α μ m).fibers.length = m.fibers.length := by simp [matIn]
  constructor
  · intro h
    refine ⟨fun i hi => ?_, fun r hr hlt => ?_⟩
    · have := h.floor i (by rw [hlen]; exact hi)
      rw [thick_in, mul_div_assoc, mul_le_mul_iff_right₀ hα] at this
      exact this
    · have := h.gap _ (List.mem_map_of_mem hr) hlt
      simp only [thick_in] at this
      rw [← mul_add, mul_div_assoc, ← mul_sub, mul_le_mul_iff_right₀ hα] at this
      exact this
  · intro h
    refine ⟨fun i hi => ?_, fun r' hr hlt => ?_⟩
    · rw [hlen] at hi
      rw [thick_in, mul_div_assoc, mul_le_mul_iff_right₀ hα]
      exact h.floor i hi
    · obtain ⟨r, hr0, rfl⟩ := List.mem_map.1 hr
      simp only [thick_in]
      rw [← mul_add, mul_div_assoc, ← mul_sub, mul_le_mul_iff_right₀ hα]
      exact h.gap r hr0 hlt

theorem lowest_in {α : K} (hα : 0 < α) (μ : K) {m : Mat K} {net : Net K} {z : ℕ → K} (h : Lowest m net.rows z) :
    Lowest (matIn α μ m) (netIn α net).rows (fun i => α * z i) := by
  refine ⟨(noOverlap_in hα μ z).2 h.1, ?_⟩
  intro y hy i hi
  have hi : i < m.fibers.length := by simpa [matIn] using hi
  have e : y = fun i => α * (y i / α) := funext (fun i => by rw [mul_div_cancel₀ _ hα.ne'])
  rw [e, noOverlap_in hα μ] at hy
  have := h.2 _ hy i hi
  rwa [le_div_iff₀ hα, mul_comm] at this

theorem keep_in {α : K} (hα : 0 < α) (threshold : Option K) (net : Net K) :
    keep (threshold.map (fun t => α * t)) (netIn α net) = netIn α (keep threshold net) := by
  cases threshold with
  | none => rfl
  | some t =>
    simp only [keep, netIn, Option.map_some, Net.mk.injEq, and_true, thresholdRows]
    rw [List.filter_map]
    congr 1
    refine List.filter_congr ?_
    intro r _
    simp only [Function.comp]
    rw [decide_eq_decide, ← mul_sub, abs_mul, abs_of_pos hα, mul_le_mul_iff_right₀ hα]

/-- The stack in other units, for every pair of correct linear programming solvers. -/
theorem C81_stack {lp lp' : Linprog K} (hlp : GoodLinprog lp) (hlp' : GoodLinprog lp') {m : Mat K} (h : GoodMat m) {α μ : K}
    (hα : 0 < α) (hμ : 0 < μ) {periodic : Bool} {net : Net K} (hn : netNew m periodic = .ok net) {threshold : Option K} {m1 : Mat K}
    {st : Net K} (hst : stackNew lp m net threshold = .ok (m1, st)) :
    stackNew lp' (matIn α μ m) (netIn α net) (threshold.map (fun t => α * t)) = .ok (matIn α μ m1, netIn α st) := by
  have h' := goodMat_in hα hμ h
  have hn' := C81_net h hα hμ hn
  obtain ⟨hck, ho, hper⟩ := netNew_over h hn
  obtain ⟨hck', ho', hper'⟩ := netNew_over h' hn'
  obtain ⟨z, hz, hlow, hcase⟩ := stackNew_good hlp h hck ho threshold
  obtain ⟨z', hz', hlow', hcase'⟩ := stackNew_good hlp' h' hck' ho' (threshold.map (fun t => α * t))
  rcases hcase with ⟨he, -, e⟩ | ⟨hne, net1, g1, e⟩
  · rw [hst] at e
    cases e
    rcases hcase' with ⟨-, -, e'⟩ | ⟨hne', -⟩
    · exact e'
    · exact absurd (by simp [matIn, he]) hne'
  · rcases hcase' with ⟨he', -⟩ | ⟨-, net1', g1', e'⟩
    · exact absurd (by simpa [matIn] using he') hne
    · rw [hst] at e
      cases e
      have hlen : (matIn α μ m).fibers.length = m.fibers.length := by simp [matIn]
      have huniq := lowest_unique hlow' (lowest_in hα μ hlow)
      have hzz : z' = z.map (fun t => α * t) := by
        apply List.ext_getElem
        · rw [hz', hlen, List.length_map, hz]
        · intro i h1 h2
          have hi : i < (matIn α μ m).fibers.length := by rw [← hz']; exact h1
          have := huniq i hi
          have hi2 : i < z.length := by rw [hz, ← hlen]; exact hi
          simp only [comp, List.getD_eq_getElem?_getD, List.getElem?_eq_getElem h1, List.getElem?_eq_getElem hi2,
            Option.getD_some] at this
          rw [List.getElem_map]
          exact this
      have hset : (matIn α μ m).setZ z' = matIn α μ (m.setZ z) := by
        rw [hzz]
        simp only [Mat.setZ, matIn, Mat.mk.injEq, and_true]
        rw [List.zip_map, List.map_map, List.map_map]
        rfl
      rw [hset, hper'] at g1'
      rw [hper] at g1
      have g2 := C81_net (setZ_good h hz) hα hμ g1
      rw [show some periodic = some periodic from rfl] at g1'
      rw [e', hset]
      have : netIn α net1 = net1' := by
        have := g2.symm.trans g1'
        exact Except.ok.inj this
      rw [← this, keep_in hα]

/-! ### Meshes -/

theorem meshNew_spec {net : Net K} {mesh : Mesh K} (hm : meshNew net = .ok mesh) :
    mesh.rows = meshRows net.rows ∧ mesh.attrs = net.attrs ∧ mesh.h = none ∧ meshCheck mesh.frame = .ok () ∧ netCheck net.frame = .ok () := by
  simp only [meshNew, meshInit, Bind.bind, Except.bind, pure, Except.pure] at hm
  split at hm
  · simp at hm
  · rename_i v hv
    split at hv
    · simp at hv
    · rename_i u hu
      cases hv
      split at hm
      · simp at hm
      · rename_i w hw
        cases hm
        cases u
        cases w
        exact ⟨rfl, rfl, rfl, hw, hu⟩

/-- The mesh in other units. -/
theorem C81_mesh {net : Net K} {mesh mesh' : Mesh K} {α : K} (hα : 0 < α) (hm : meshNew net = .ok mesh)
    (hm' : meshNew (netIn α net) = .ok mesh') : mesh' = meshIn α mesh := by
  obtain ⟨h1, h2, h3, -⟩ := meshNew_spec hm
  obtain ⟨h1', h2', h3', -⟩ := meshNew_spec hm'
  obtain ⟨rows, attrs, h⟩ := mesh
  obtain ⟨rows', attrs', h'⟩ := mesh'
  simp only at h1 h2 h1' h2' h3 h3'
  subst h1 h2 h1' h2' h3 h3'
  simp only [meshIn, Mesh.mk.injEq]
  refine ⟨?_, rfl, rfl⟩
  have := meshRows_map (unitMap α) (fun a b => mul_le_mul_iff_right₀ hα) net.rows
  exact this

/-! ### The chain -/

/-- The whole simulation of a planar stacked mat in other units: the same run, with lengths multiplied by `α` and contact forces by
`μ α²`, whatever correct solvers are used. -/
theorem C81_chain {lp lp' : Linprog K} (hlp : GoodLinprog lp) (hlp' : GoodLinprog lp') {m : Mat K} (h : GoodMat m)
    (hw : ∀ f ∈ m.fibers, f.w = 0) {periodic : Bool} {net : Net K} (hn : netNew m periodic = .ok net) {threshold : Option K}
    {m1 : Mat K} {st : Net K} (hst : stackNew lp m net threshold = .ok (m1, st)) (hth : KeepsTouching m threshold) {mesh : Mesh K}
    (hmesh : meshNew st = .ok mesh) {lmin lmax : Option K} (hp : PositiveLengths mesh.rows lmin lmax) {coupling : K}
    (hcoup : |coupling| ≤ 1) (hor : |coupling| < 1 ∨ ∀ f ∈ m.fibers, f.E = ⊤) {o : Opts K} (htol : 0 ≤ o.tol)
    (hlin : GoodLin o.lin) {lin' : LinSolver K} (hlin' : GoodLin lin') {perm perm' : Option (List ℕ)} {S : Sys K} {recs : List (Rec K)}
    {stop : Stop} (hs : chain lp periodic threshold lmin lmax coupling o perm m = .ok (S, recs, stop)) (hperm : PermOf S.n perm)
    (hperm' : PermOf S.n perm') {α μ : K} (hα : 0 < α) (hμ : 0 < μ) :
    ∃ S' recs', chain lp' periodic (threshold.map (fun t => α * t)) (lmin.map (fun t => α * t)) (lmax.map (fun t => α * t)) coupling
        { o with tol := α * o.tol, lin := lin' } perm' (matIn α μ m) = .ok (S', recs', stop) ∧
      List.Forall₂ (RecIn α μ mesh.rows.length) recs recs' := by
  have hs : solve m1 mesh lmin lmax coupling o perm = .ok (S, recs, stop) := by
    unfold chain at hs
    simpa only [hn, hst, hmesh, Bind.bind, Except.bind] using hs
  have hne := chain_nonempty hlp h hn hst hmesh hs
  obtain ⟨net', g1, rfl, hgood, hsame, hend, h3, hvalid, hof, hner⟩ := chain_facts hlp h hne hn hst hmesh
  obtain ⟨Km, cs, hK, hC, -⟩ := solve_run hs
  obtain ⟨-, ⟨L, hL⟩, -⟩ := C65_lengths hK
  obtain ⟨S', recs', h1, h2⟩ := C81_solve hs hgood hvalid hp hcoup hL htol hlin hperm (by
    intro a ha _ hf
    rw [C73_translation hK hgood hvalid hp hcoup hL (hor.imp_right (same_tensile hsame))] at hf
    obtain ⟨k, hk⟩ := List.mem_iff_getElem?.1 ha
    exact chain_supported hlp h hw hn hst hth hmesh hs hp htol hlin.1 hperm hk hf) hlin' hperm' hα hμ
  refine ⟨S', recs', ?_, h2⟩
  have e1 := C81_net (μ := μ) h hα hμ hn
  have e2 := C81_stack (μ := μ) hlp hlp' h hα hμ hn hst
  obtain ⟨m2, st2, mesh2, hst2, hmesh2, -⟩ := C27_mesh_of_stack hlp' (goodMat_in hα hμ h) e1 (threshold.map (fun t => α * t))
  rw [e2] at hst2
  cases hst2
  have e3 := C81_mesh hα hmesh hmesh2
  subst e3
  unfold chain
  simp only [e1, e2, hmesh2, Bind.bind, Except.bind]
  exact h1

end Fibermat
