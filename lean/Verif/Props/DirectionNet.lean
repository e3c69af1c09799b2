import Verif.Spec.Direction
import Verif.Lemmas.RenameSolver
import Verif.Props.UnitsChain

/-! # Nets and stacks do not depend on the direction chosen along each fiber (C104) -/

set_option linter.unusedSectionVars false
set_option linter.unusedSimpArgs false

namespace Fibermat
variable {K : Type} [Field K] [LinearOrder K] [IsStrictOrderedRing K]
open Spec

theorem turned_sg (b : Bool) (s : K) : turned b s = sg b s := rfl

theorem turned_abs (b : Bool) (s : K) : |turned b s| = |s| := by cases b <;> simp [turned]

/-! ### Nets -/

theorem maxLength_congr {fs gs : List (Fiber K)} (h : fs.map (·.l) = gs.map (·.l)) : maxLength fs = maxLength gs := by
  cases fs with
  | nil =>
    cases gs with
    | nil => rfl
    | cons g t => simp at h
  | cons f s =>
    cases gs with
    | nil => simp at h
    | cons g t =>
      simp only [List.map_cons, List.cons.injEq] at h
      simp only [maxLength]
      rw [h.1]
      have key : ∀ (s t : List (Fiber K)) (a : K), s.map (·.l) = t.map (·.l) →
          s.foldl (fun m g => max m g.l) a = t.foldl (fun m g => max m g.l) a := by
        intro s
        induction s with
        | nil =>
          intro t a h
          cases t with
          | nil => rfl
          | cons g t => simp at h
        | cons f s ih =>
          intro t a h
          cases t with
          | nil => simp at h
          | cons g t =>
            simp only [List.map_cons, List.cons.injEq] at h
            simp only [List.foldl_cons]
            rw [h.1]
            exact ih t _ h.2
      exact key s t g.l h.2

/-- A labelled fiber after reversal. -/
def turnLabel (d : ℕ → Bool) (p : ℕ × Fiber K) : ℕ × Fiber K := (p.1, turnFiber (d p.1) p.2)

theorem extFibers_turn (d : ℕ → Bool) (periodic : Bool) (S : K) (fs : List (Fiber K)) :
    extFibers periodic S (fs.mapIdx (fun i f => turnFiber (d i) f)) = (extFibers periodic S fs).map (turnLabel d) := by
  have hbase : ((fs.mapIdx (fun i f => turnFiber (d i) f)).zipIdx.map (fun p => (p.2, p.1))) =
      (fs.zipIdx.map (fun p => (p.2, p.1))).map (turnLabel d) := by
    apply List.ext_getElem?
    intro i
    simp only [List.getElem?_map, List.getElem?_zipIdx, List.getElem?_mapIdx, Option.map_map]
    cases fs[i]? with
    | none => rfl
    | some f => simp [turnLabel]
  have hmax : maxLength (fs.mapIdx (fun i f => turnFiber (d i) f)) = maxLength fs := by
    apply maxLength_congr
    apply List.ext_getElem?
    intro i
    simp only [List.getElem?_map, List.getElem?_mapIdx, Option.map_map]
    cases fs[i]? with
    | none => rfl
    | some f => rfl
  unfold extFibers
  split
  · unfold periodicFibers
    simp only [hbase, hmax, List.map_append, List.filter_map, List.map_map]
    rfl
  · exact hbase

/-- A candidate connection after reversal. -/
def turnCand (d : ℕ → Bool) (c : Cand K) : Cand K :=
  if c.A = c.B then c else ⟨c.A, c.B, turned (d c.A) c.sA, turned (d c.B) c.sB⟩

theorem dotU_turn (b b' : Bool) (f g : Fiber K) : dotU (turnFiber b f) (turnFiber b' g) = turned (b != b') (dotU f g) := by
  cases b <;> cases b' <;> simp only [dotU, turnFiber, turned, bne_self_eq_false, Bool.false_eq_true, if_false, if_true,
    Bool.true_bne, Bool.false_bne, Bool.not_true, Bool.not_false] <;> ring

theorem dotR_turn (b b1 b2 : Bool) (e f g : Fiber K) :
    dotR (turnFiber b e) (turnFiber b1 f) (turnFiber b2 g) = turned b (dotR e f g) := by
  cases b <;> simp only [dotR, turnFiber, turned, Bool.false_eq_true, if_false, if_true] <;> ring

theorem detU_turn (b b' : Bool) (f g : Fiber K) : detU (turnFiber b f) (turnFiber b' g) = detU f g := by
  unfold detU
  simp only [dotU_turn]
  cases b <;> cases b' <;> simp [turned]

theorem abscissae_turn (b b' : Bool) (f g : Fiber K) (h : detU f g ≠ 0) :
    abscissae (turnFiber b f) (turnFiber b' g) = (turned b (abscissae f g).1, turned b' (abscissae f g).2) := by
  unfold abscissae
  simp only [detU_turn, dotU_turn, dotR_turn, if_pos h, ne_eq, h, not_false_eq_true]
  cases b <;> cases b' <;> simp only [turned, bne_self_eq_false, Bool.false_eq_true, if_false, if_true, Bool.true_bne, Bool.false_bne,
    Bool.not_true, Bool.not_false, Prod.mk.injEq] <;> constructor <;> ring

theorem abscissae_parallel {f g : Fiber K} (h : detU f g = 0) : abscissae f g = (f.l / 2, -(g.l / 2)) := by
  simp [abscissae, h]

/-- Fibers with the same label have the same direction. -/
theorem candidate_turn (d : ℕ → Bool) {a b : ℕ} {f g : Fiber K} (hf : 0 < f.l) (hab : a = b → detU f g = 0) :
    candidate (turnLabel d (a, f), turnLabel d (b, g)) = (candidate ((a, f), (b, g))).map (turnCand d) := by
  have hn : nearby (turnFiber (d a) f) (turnFiber (d b) g) = nearby f g := rfl
  unfold candidate
  simp only [turnLabel, hn]
  have e1 : (turnFiber (d a) f).l = f.l := rfl
  have e2 : (turnFiber (d b) g).l = g.l := rfl
  simp only [e1, e2]
  by_cases hne : nearby f g = true
  · simp only [hne, if_true]
    by_cases hd : detU f g = 0
    · have hd' : detU (turnFiber (d a) f) (turnFiber (d b) g) = 0 := by rw [detU_turn]; exact hd
      rw [abscissae_parallel hd, abscissae_parallel hd', e1, e2]
      have hfalse : ¬ (|f.l / 2| < f.l / 2 ∧ |-(g.l / 2)| < g.l / 2) := by
        rintro ⟨h1, -⟩
        exact absurd (le_abs_self (f.l / 2)) (not_le.2 h1)
      by_cases he : a = b
      · subst he
        simp [turnCand]
      · simp only [hfalse, he, or_self, if_false, Option.map_none]
    · have he : a ≠ b := fun e => hd (hab e)
      rw [abscissae_turn _ _ _ _ hd]
      simp only [turned_abs, he, or_false]
      by_cases hc : |(abscissae f g).1| < f.l / 2 ∧ |(abscissae f g).2| < g.l / 2
      · rw [if_pos hc, if_pos hc]
        by_cases hle : a ≤ b
        · simp [hle, turnCand, he]
        · simp [hle, turnCand, Ne.symm he]
      · rw [if_neg hc, if_neg hc]; rfl
  · simp only [hne]; rfl

theorem netCands_turn (d : ℕ → Bool) (periodic : Bool) (S : K) {fs : List (Fiber K)} (hl : ∀ f ∈ fs, 0 < f.l) :
    netCands periodic S (fs.mapIdx (fun i f => turnFiber (d i) f)) = (netCands periodic S fs).map (turnCand d) := by
  unfold netCands sortDedup dropDup
  rw [extFibers_turn, triu_map, List.filterMap_map]
  have e : (triu (extFibers periodic S fs)).filterMap
      (candidate ∘ fun p : (ℕ × Fiber K) × (ℕ × Fiber K) => (turnLabel d p.1, turnLabel d p.2)) =
      (triu (extFibers periodic S fs)).filterMap (fun p : (ℕ × Fiber K) × (ℕ × Fiber K) => (candidate p).map (turnCand d)) := by
    refine List.filterMap_congr ?_
    rintro ⟨⟨a, f⟩, ⟨b, g⟩⟩ hp
    obtain ⟨h1, h2⟩ := mem_triu hp
    obtain ⟨f0, i, j, hf0, hfe, -⟩ := ext_image h1
    obtain ⟨g0, i', j', hg0, hge, -⟩ := ext_image h2
    simp only at hf0 hfe hg0 hge
    have hfl := hl _ (List.mem_of_getElem? hf0)
    refine candidate_turn d (by rw [hfe]; exact hfl) ?_
    rintro rfl
    rw [hf0] at hg0
    cases hg0
    rw [hfe, hge]
    exact detU_shift S i j i' j' f0
  rw [e, ← List.map_filterMap]
  have hA : ∀ c : Cand K, (turnCand d c).A = c.A := fun c => by unfold turnCand; split <;> rfl
  have hB : ∀ c : Cand K, (turnCand d c).B = c.B := fun c => by unfold turnCand; split <;> rfl
  rw [insertionSort_map (turnCand d) candLe candLe (fun a b => by unfold candLe; rw [hA, hA, hB, hB])]
  exact dropDupAux_map (turnCand d) (fun c : Cand K => (c.A, c.B)) (fun c : Cand K => (c.A, c.B)) (fun a => by rw [hA, hB]) [] _

theorem goodMat_turn (d : ℕ → Bool) {m : Mat K} (h : GoodMat m) : GoodMat (turnMat d m) := by
  obtain ⟨S, hS, hf⟩ := h.size
  refine ⟨by simp only [turnMat, List.length_mapIdx]; exact h.n, S, hS, ?_⟩
  intro f' hf'
  obtain ⟨i, hi⟩ := List.mem_iff_getElem?.1 hf'
  simp only [turnMat, List.getElem?_mapIdx, Option.map_eq_some_iff] at hi
  obtain ⟨f, hfi, rfl⟩ := hi
  have g := hf f (List.mem_of_getElem? hfi)
  have e : (turnFiber (d i) f).u ^ 2 + (turnFiber (d i) f).v ^ 2 + (turnFiber (d i) f).w ^ 2 = f.u ^ 2 + f.v ^ 2 + f.w ^ 2 := by
    cases d i <;> simp [turnFiber, turned]
  exact ⟨g.l, g.b, g.h, g.x1, g.x2, g.y1, g.y2, by rw [e]; exact g.dir1, by rw [e]; exact g.dir2, g.G, g.E⟩

/-- The net after reversal of fibers. -/
theorem C104_net {m : Mat K} (h : GoodMat m) (d : ℕ → Bool) {periodic : Bool} {net : Net K} (hn : netNew m periodic = .ok net) :
    netNew (turnMat d m) periodic = .ok (turnNet d net) := by
  obtain ⟨S, hS, hgood, rfl⟩ := netNew_ok h hn
  have hl : ∀ f ∈ m.fibers, 0 < f.l := fun f hf => (hgood f hf).l
  rw [netNew_eq (goodMat_turn d h) (show (turnMat d m).attrs.size = some S from hS)]
  congr 1
  simp only [turnNet, Net.mk.injEq]
  refine ⟨?_, rfl⟩
  show (netCands periodic S (m.fibers.mapIdx (fun i f => turnFiber (d i) f))).map (netRow (m.fibers.mapIdx (fun i f => turnFiber (d i) f))) = _
  rw [netCands_turn d periodic S hl, List.map_map, List.map_map]
  refine List.map_congr_left ?_
  intro c hc
  have hg : ∀ (i : ℕ) (f : Fiber K), m.fibers[i]? = some f →
      (m.fibers.mapIdx (fun i f => turnFiber (d i) f)).getD i Fiber.zero = turnFiber (d i) f := by
    intro i f hf
    simp only [List.getD_eq_getElem?_getD, List.getElem?_mapIdx, hf, Option.map_some, Option.getD_some]
  have hg0 : ∀ (i : ℕ) (f : Fiber K), m.fibers[i]? = some f → m.fibers.getD i Fiber.zero = f := by
    intro i f hf
    simp only [List.getD_eq_getElem?_getD, hf, Option.getD_some]
  simp only [Function.comp]
  rcases netCands_mem hl hc with ⟨a, b, f, g, i, j, i', j', hab, hf, hgb, -, hcand⟩ | ⟨a, f, hf, rfl⟩
  · rw [candidate_ne hab (by exact hl f (List.mem_of_getElem? hf))] at hcand
    obtain ⟨-, -, rfl, -⟩ := hcand
    have hne : ¬ ((a : Int) = (b : Int)) := by omega
    simp only [turnCand, netRow, turnRow, hab.ne, if_false, hg a f hf, hg b g hgb, hg0 a f hf, hg0 b g hgb, hne, Int.toNat_natCast]
    simp only [turnFiber, NetRow.mk.injEq, true_and]
    cases d a <;> cases d b <;> simp [turned]
  · simp only [turnCand, netRow, turnRow, if_true, hg a f hf, hg0 a f hf, Int.toNat_natCast]
    cases d a with
    | false => simp [turnFiber, turned]
    | true => simp [turnFiber, turned]

/-! ### Stacks -/

theorem thick_turn (d : ℕ → Bool) (m : Mat K) (i : ℕ) : thick (turnMat d m) i = thick m i := by
  unfold thick turnMat
  simp only [List.getElem?_mapIdx]
  cases m.fibers[i]? with
  | none => rfl
  | some f => rfl

theorem turnRow_A (d : ℕ → Bool) (r : NetRow K) : (turnRow d r).A = r.A := by
  unfold turnRow; split
  · split <;> rfl
  · rfl

theorem turnRow_B (d : ℕ → Bool) (r : NetRow K) : (turnRow d r).B = r.B := by
  unfold turnRow; split
  · split <;> rfl
  · rfl

theorem noOverlap_turn (d : ℕ → Bool) {m : Mat K} {net : Net K} (y : ℕ → K) :
    NoOverlap (turnMat d m) (turnNet d net).rows y ↔ NoOverlap m net.rows y := by
  have hlen : (turnMat d m).fibers.length = m.fibers.length := by simp [turnMat]
  constructor
  · intro h
    refine ⟨fun i hi => ?_, fun r hr hlt => ?_⟩
    · have := h.floor i (by rw [hlen]; exact hi)
      rwa [thick_turn] at this
    · have := h.gap _ (List.mem_map_of_mem (f := turnRow d) hr) (by rw [turnRow_A, turnRow_B]; exact hlt)
      simpa only [thick_turn, turnRow_A, turnRow_B] using this
  · intro h
    refine ⟨fun i hi => ?_, fun r' hr hlt => ?_⟩
    · rw [hlen] at hi
      rw [thick_turn]
      exact h.floor i hi
    · obtain ⟨r, hr0, rfl⟩ := List.mem_map.1 hr
      simp only [thick_turn, turnRow_A, turnRow_B] at hlt ⊢
      exact h.gap r hr0 hlt

theorem lowest_turn (d : ℕ → Bool) {m : Mat K} {net : Net K} {z : ℕ → K} (h : Lowest m net.rows z) :
    Lowest (turnMat d m) (turnNet d net).rows z := by
  refine ⟨(noOverlap_turn d z).2 h.1, ?_⟩
  intro y hy i hi
  exact h.2 _ ((noOverlap_turn d y).1 hy) i (by simpa [turnMat] using hi)

theorem keep_turn (d : ℕ → Bool) (threshold : Option K) (net : Net K) :
    keep threshold (turnNet d net) = turnNet d (keep threshold net) := by
  cases threshold with
  | none => rfl
  | some t =>
    simp only [keep, turnNet, Net.mk.injEq, and_true, thresholdRows]
    rw [List.filter_map]
    congr 1
    refine List.filter_congr ?_
    intro r _
    simp only [Function.comp]
    rw [decide_eq_decide, turnRow_A, turnRow_B]
    by_cases he : r.A = r.B
    · simp [he]
    · simp [turnRow, he]

/-- The stack after reversal of fibers, for every pair of correct linear programming solvers. -/
theorem C104_stack {lp lp' : Linprog K} (hlp : GoodLinprog lp) (hlp' : GoodLinprog lp') {m : Mat K} (h : GoodMat m) (d : ℕ → Bool)
    {periodic : Bool} {net : Net K} (hn : netNew m periodic = .ok net) {threshold : Option K} {m1 : Mat K}
    {st : Net K} (hst : stackNew lp m net threshold = .ok (m1, st)) :
    stackNew lp' (turnMat d m) (turnNet d net) threshold = .ok (turnMat d m1, turnNet d st) := by
  have h' := goodMat_turn d h
  have hn' := C104_net h d hn
  obtain ⟨hck, ho, hper⟩ := netNew_over h hn
  obtain ⟨hck', ho', hper'⟩ := netNew_over h' hn'
  obtain ⟨z, hz, hlow, hcase⟩ := stackNew_good hlp h hck ho threshold
  obtain ⟨z', hz', hlow', hcase'⟩ := stackNew_good hlp' h' hck' ho' threshold
  have hlen : (turnMat d m).fibers.length = m.fibers.length := by simp [turnMat]
  have hemp : (turnMat d m).fibers = [] ↔ m.fibers = [] := by
    rw [← List.length_eq_zero_iff, hlen, List.length_eq_zero_iff]
  rcases hcase with ⟨he, -, e⟩ | ⟨hne, net1, g1, e⟩
  · rw [hst] at e
    cases e
    rcases hcase' with ⟨-, -, e'⟩ | ⟨hne', -⟩
    · exact e'
    · exact absurd (hemp.2 he) hne'
  · rcases hcase' with ⟨he', -⟩ | ⟨-, net1', g1', e'⟩
    · exact absurd (hemp.1 he') hne
    · rw [hst] at e
      cases e
      have huniq := lowest_unique hlow' (lowest_turn d hlow)
      have hzz : z' = z := by
        apply List.ext_getElem
        · rw [hz', hlen, hz]
        · intro i h1 h2
          have hi : i < (turnMat d m).fibers.length := by rw [← hz']; exact h1
          have := huniq i hi
          simp only [comp, List.getD_eq_getElem?_getD, List.getElem?_eq_getElem h1, List.getElem?_eq_getElem h2,
            Option.getD_some] at this
          exact this
      have hset : (turnMat d m).setZ z' = turnMat d (m.setZ z) := by
        rw [hzz]
        simp only [Mat.setZ, turnMat, Mat.mk.injEq, and_true]
        apply List.ext_getElem?
        intro i
        simp only [List.getElem?_map, List.getElem?_mapIdx, List.getElem?_zip_eq_some, List.zip, List.getElem?_zipWith]
        cases m.fibers[i]? with
        | none => rfl
        | some f =>
          cases z[i]? with
          | none => rfl
          | some t => rfl
      rw [hset, hper'] at g1'
      rw [hper] at g1
      have g2 := C104_net (setZ_good h hz) d g1
      rw [e', hset]
      have : turnNet d net1 = net1' := by
        have := g2.symm.trans g1'
        exact Except.ok.inj this
      rw [← this, keep_turn]

end Fibermat
