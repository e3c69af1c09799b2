import Verif.Lemmas.RoundedNet
import Verif.Props.Stack
import Verif.Lemmas.RoundedAssembly

/-! # C92: the network with rounded arithmetic and any linear solver -/

set_option linter.unusedSectionVars false

namespace Fibermat
open Spec
variable {K : Type} [Field K] [LinearOrder K] [IsStrictOrderedRing K]

section
variable {N : NetArith K} {u : K} {m m' : Mat K} {periodic : Bool} {net net' : Net K}

/-- C92: without rounding errors and with the exact solution of the normal equations, the network is that of the exact model. -/
theorem C92_exact (m : Mat K) (periodic : Bool) (pairs : Option (List (Int × Int))) :
    netNewR NetArith.exact m periodic pairs = netNew m periodic pairs := by
  have e1 : candidateR (NetArith.exact (K := K)) = candidate := by
    funext p
    obtain ⟨⟨a, f⟩, ⟨b, g⟩⟩ := p
    simp only [candidateR, candidate, NetArith.exact, nearby, abscissae, id_eq]
    by_cases hd : detU f g = 0
    · simp only [hd, ne_eq, not_true, if_false, Option.getD_none]
    · simp only [hd, ne_eq, not_false_iff, if_true, Option.getD_some]
  have e2 : netRowR (NetArith.exact (K := K)).fl = netRow := by
    funext fs c
    simp [netRowR, netRow, NetArith.exact]
  have e3 : periodicFibersR (NetArith.exact (K := K)).fl = periodicFibers := by
    funext S fs
    simp [periodicFibersR, periodicFibers, NetArith.exact]
  unfold netNewR netNew netInitR netInit
  rw [e1, e2, e3]
  cases matCheck m.frame <;> cases periodic <;> cases m.attrs.size <;> cases pairs <;> rfl

/-- C92: `Net(mat)` never raises for a valid mat, and passes its check, whatever the linear solver answers for different fibers. -/
theorem C92_runs (hN : SoundArith N u) (hE : FindsEnds N m) (h : GoodMat m) (periodic : Bool) :
    ∃ net, netNewR N m periodic = .ok net ∧ ValidNet net.frame ∧ net.attrs = { m.attrs with periodic := some periodic } := by
  obtain ⟨S, hS, -⟩ := h.size
  obtain ⟨e, hv⟩ := netNewR_eq hN hE h hS periodic
  exact ⟨_, e, hv, rfl⟩

/-- C92: rows are strictly increasing in (A, B). -/
theorem C92_increasing (hN : SoundArith N u) (hE : FindsEnds N m) (h : GoodMat m) (hn : netNewR N m periodic = .ok net) :
    IncreasingAB net.rows := by
  obtain ⟨S, hS, hf, -, rfl⟩ := netNewR_ok hN hE h hn
  unfold IncreasingAB
  rw [List.pairwise_map]
  refine (sortDedup_strict _).imp ?_
  intro c d hcd
  unfold candLt at hcd
  simp only [netRowR]; omega

/-- A computed point. -/
theorem near_point {fl : K → K} (hr : Rounds fl u) (hu : u < 1) (a s b : K) : NearPoint u (fl (a + fl (s * b))) a s b := by
  have hu0 := hr.u_nonneg
  have h1 := hr.err (s * b)
  have h2 := hr.err (a + fl (s * b))
  have h3 : |fl (s * b)| ≤ (1 + u) * |s * b| := by
    calc |fl (s * b)| = |(fl (s * b) - s * b) + s * b| := by rw [sub_add_cancel]
      _ ≤ |fl (s * b) - s * b| + |s * b| := abs_add_le _ _
      _ ≤ _ := by linarith
  have h4 : |a + fl (s * b)| ≤ |a| + (1 + u) * |s * b| := (abs_add_le _ _).trans (by linarith)
  have h5 : |fl (a + fl (s * b)) - (a + s * b)| ≤ |fl (a + fl (s * b)) - (a + fl (s * b))| + |fl (s * b) - s * b| := by
    calc _ = |(fl (a + fl (s * b)) - (a + fl (s * b))) + (fl (s * b) - s * b)| := by congr 1; ring
      _ ≤ _ := abs_add_le _ _
  have h6 : u * |a + fl (s * b)| ≤ u * (|a| + (1 + u) * |s * b|) := mul_le_mul_of_nonneg_left h4 hu0
  have h7 : u * ((1 + u) * |s * b|) ≤ u * (2 * |s * b|) :=
    mul_le_mul_of_nonneg_left (mul_le_mul_of_nonneg_right (by linarith) (abs_nonneg _)) hu0
  unfold NearPoint
  linarith

/-- C92: each fiber has exactly one row with `A = B`; it carries the two ends of the fiber, half a length from the middle up to one
rounding. -/
theorem C92_end_row (hN : SoundArith N u) (hE : FindsEnds N m) (h : GoodMat m) (hn : netNewR N m periodic = .ok net)
    {i : Nat} {f : Fiber K} (hf : m.fibers[i]? = some f) :
    ∃ (k : Nat) (r : NetRow K), net.rows[k]? = some r ∧ r.A = (i : Int) ∧ r.B = (i : Int) ∧ r.sB = -r.sA ∧
      |r.sA - f.l / 2| ≤ u * (f.l / 2) ∧
      ∀ (k' : Nat) (r' : NetRow K), net.rows[k']? = some r' → r'.A = (i : Int) → r'.B = (i : Int) → k' = k := by
  have hinc := C92_increasing hN hE h hn
  obtain ⟨S, hS, -, -, rfl⟩ := netNewR_ok hN hE h hn
  have hpos := goodMat_pos h f (List.mem_of_getElem? hf)
  have hmem := netCandsR_ends (periodic := periodic) (S := S) hN hE (goodMat_pos h) hf
  have hrm := List.mem_map_of_mem (f := netRowR N.fl m.fibers) hmem
  obtain ⟨k, hk⟩ := List.mem_iff_getElem?.1 hrm
  rw [netRowR_of (f := f) (g := f) hf hf] at hk
  refine ⟨k, _, hk, rfl, rfl, rfl, ?_, ?_⟩
  · have := hN.rounds.err (f.l / 2)
    rwa [abs_of_pos (show 0 < f.l / 2 by linarith)] at this
  · intro k' r' hk' hA hB
    exact row_unique hinc hk' hk hA hB

/-- C92: the nodes of a connection are on its two fibers, strictly between their ends, and their positions are those of the abscissae
up to rounding. -/
theorem C92_nodes (hN : SoundArith N u) (hE : FindsEnds N m) (h : GoodMat m) (hn : netNewR N m periodic = .ok net)
    {r : NetRow K} (hr : r ∈ net.rows) :
    ∃ f g, Joins m r f g ∧ r.A ≤ r.B ∧
      (NearPoint u r.xA f.x r.sA f.u ∧ NearPoint u r.yA f.y r.sA f.v ∧ NearPoint u r.zA f.z r.sA f.w) ∧
      (NearPoint u r.xB g.x r.sB g.u ∧ NearPoint u r.yB g.y r.sB g.v ∧ NearPoint u r.zB g.z r.sB g.w) ∧
      |r.sA| ≤ (1 + u) * (f.l / 2) ∧ |r.sB| ≤ (1 + u) * (g.l / 2) ∧
      (r.A < r.B → ∃ (ef eg : NetRow K), ef ∈ net.rows ∧ eg ∈ net.rows ∧ ef.A = r.A ∧ ef.B = r.A ∧ eg.A = r.B ∧ eg.B = r.B ∧
        ef.sB < r.sA ∧ r.sA < ef.sA ∧ eg.sB < r.sB ∧ r.sB < eg.sA) := by
  obtain ⟨S, hS, -, -, rfl⟩ := netNewR_ok hN hE h hn
  obtain ⟨c, hc, rfl⟩ := List.mem_map.1 hr
  obtain ⟨f, g, hp⟩ := netCandsR_mem hN hE (goodMat_pos h) hc
  have hpos : ∀ {e : Fiber K} {k : ℕ}, m.fibers[k]? = some e → 0 < e.l / 2 := by
    intro e k he
    have := goodMat_pos h e (List.mem_of_getElem? he)
    linarith
  have hhalf : ∀ {e : Fiber K} {k : ℕ}, m.fibers[k]? = some e → N.fl (e.l / 2) ≤ (1 + u) * (e.l / 2) ∧ 0 < N.fl (e.l / 2) := by
    intro e k he
    have h1 := (abs_le.1 (hN.rounds.err (e.l / 2))).2
    rw [abs_of_pos (hpos he)] at h1
    exact ⟨by linarith, fl_half_pos hN.rounds hN.lt (goodMat_pos h e (List.mem_of_getElem? he))⟩
  rw [netRowR_of hp.getA hp.getB]
  refine ⟨f, g, ⟨c.A, c.B, rfl, rfl, hp.getA, hp.getB⟩, by simpa using hp.le,
    ⟨near_point hN.rounds hN.lt _ _ _, near_point hN.rounds hN.lt _ _ _, near_point hN.rounds hN.lt _ _ _⟩,
    ⟨near_point hN.rounds hN.lt _ _ _, near_point hN.rounds hN.lt _ _ _, near_point hN.rounds hN.lt _ _ _⟩, ?_, ?_, ?_⟩
  · rcases Nat.lt_or_ge c.A c.B with hlt | hge
    · exact (hp.inner hlt).1.le.trans (hhalf hp.getA).1
    · have := (hp.ends (by have := hp.le; omega)).1
      simp only [this, abs_of_pos (hhalf hp.getA).2]
      exact (hhalf hp.getA).1
  · rcases Nat.lt_or_ge c.A c.B with hlt | hge
    · exact (hp.inner hlt).2.1.le.trans (hhalf hp.getB).1
    · have e : c.A = c.B := by have := hp.le; omega
      have := (hp.ends e).2
      have hg := hp.getB
      rw [← e, hp.getA] at hg; cases hg
      simp only [this, abs_neg, abs_of_pos (hhalf hp.getA).2]
      exact (hhalf hp.getA).1
  · intro hlt
    have hlt : c.A < c.B := by simpa using hlt
    obtain ⟨h1, h2, -⟩ := hp.inner hlt
    have m1 := List.mem_map_of_mem (f := netRowR N.fl m.fibers) (netCandsR_ends (periodic := periodic) (S := S) hN hE (goodMat_pos h) hp.getA)
    have m2 := List.mem_map_of_mem (f := netRowR N.fl m.fibers) (netCandsR_ends (periodic := periodic) (S := S) hN hE (goodMat_pos h) hp.getB)
    exact ⟨_, _, m1, m2, rfl, rfl, rfl, rfl, (abs_lt.1 h1).1, (abs_lt.1 h1).2, (abs_lt.1 h2).1, (abs_lt.1 h2).2⟩

/-- Half the length of a fiber as computed, by label. -/
def halfLengthR (fl : K → K) (m : Mat K) (k : Int) : K := ((m.fibers[k.toNat]?).map (fun f => fl (f.l / 2))).getD 0

theorem netNewR_ended (hN : SoundArith N u) (hE : FindsEnds N m) (h : GoodMat m) (hn : netNewR N m periodic = .ok net) :
    Ended net.rows (halfLengthR N.fl m) ∧ OverMat m net.rows ∧ ValidNet net.frame ∧ net.attrs.periodic = some periodic ∧
      ∀ (k : ℕ) (f : Fiber K), m.fibers[k]? = some f → ∃ r ∈ net.rows, r.A = (k : Int) ∧ r.B = (k : Int) := by
  obtain ⟨S, hS, -, hv, rfl⟩ := netNewR_ok hN hE h hn
  have hasEnd : ∀ (k : ℕ) (f : Fiber K), m.fibers[k]? = some f →
      ∃ r ∈ (netCandsR N periodic S m.fibers).map (netRowR N.fl m.fibers), r.A = (k : Int) ∧ r.B = (k : Int) := by
    intro k f hf
    exact ⟨_, List.mem_map_of_mem (f := netRowR N.fl m.fibers) (netCandsR_ends (periodic := periodic) (S := S) hN hE (goodMat_pos h) hf),
      rfl, rfl⟩
  have key : ∀ r ∈ (netCandsR N periodic S m.fibers).map (netRowR N.fl m.fibers), ∃ c f g, r = netRowR N.fl m.fibers c ∧
      FromPair N periodic S m.fibers c f g ∧ halfLengthR N.fl m (c.A : Int) = N.fl (f.l / 2) ∧
      halfLengthR N.fl m (c.B : Int) = N.fl (g.l / 2) := by
    intro r hr
    obtain ⟨c, hc, rfl⟩ := List.mem_map.1 hr
    obtain ⟨f, g, hp⟩ := netCandsR_mem hN hE (goodMat_pos h) hc
    exact ⟨c, f, g, rfl, hp, by simp [halfLengthR, hp.getA], by simp [halfLengthR, hp.getB]⟩
  refine ⟨⟨?_, ?_, ?_, ?_, ?_⟩, ?_, hv, rfl, hasEnd⟩
  · intro r hr hne
    obtain ⟨c, f, g, rfl, hp, e1, e2⟩ := key r hr
    have hlt : c.A < c.B := by
      have := hp.le
      have : c.A ≠ c.B := fun e => hne (by simp [netRowR, e])
      omega
    obtain ⟨h1, h2, -⟩ := hp.inner hlt
    simp only [netRowR, e1, e2]
    exact ⟨h1, h2⟩
  · intro r hr he
    obtain ⟨c, f, g, rfl, hp, e1, e2⟩ := key r hr
    obtain ⟨h1, h2⟩ := hp.ends (by simpa [netRowR] using he)
    simp only [netRowR, e1]
    exact ⟨h1, h2⟩
  · intro r hr
    obtain ⟨c, f, g, rfl, hp, e1, e2⟩ := key r hr
    simp only [netRowR, e1]
    exact fl_half_pos hN.rounds hN.lt (goodMat_pos h f (List.mem_of_getElem? hp.getA))
  · intro r hr
    obtain ⟨c, f, g, rfl, hp, e1, e2⟩ := key r hr
    exact hasEnd c.A f hp.getA
  · intro r hr
    obtain ⟨c, f, g, rfl, hp, e1, e2⟩ := key r hr
    exact hasEnd c.B g hp.getB
  · intro r hr
    obtain ⟨c, f, g, rfl, hp, e1, e2⟩ := key r hr
    have h1 := hp.le
    have h2 := (List.getElem?_eq_some_iff.1 hp.getB).1
    simp only [netRowR]
    omega

/-- C92: `Mesh(Net(mat))` never raises; the beams of each fiber have lengths that are not negative and add up to the length of the fiber,
up to one rounding. -/
theorem C92_mesh (hN : SoundArith N u) (hE : FindsEnds N m) (h : GoodMat m) (hn : netNewR N m periodic = .ok net) :
    ∃ mesh, meshNew net = .ok mesh ∧ meshCheck mesh.frame = .ok () ∧
      ∀ (k : ℕ) (f : Fiber K), m.fibers[k]? = some f →
        |∑ i ∈ beamsOf mesh.rows k, beamLength mesh.rows i - f.l| ≤ u * f.l ∧
        (beamsOf mesh.rows k).card + 1 = (nodesOf mesh.rows k).card ∧
        ∀ i ∈ beamsOf mesh.rows k, 0 ≤ beamLength mesh.rows i := by
  obtain ⟨he, ho, hv, -, hends⟩ := netNewR_ended hN hE h hn
  have hc := (C14_netCheck_iff _).2 (Or.inr hv)
  obtain ⟨mesh, h1, h2⟩ := meshNew_of_ended hc he
  refine ⟨mesh, h1, ?_, ?_⟩
  · obtain ⟨-, rfl⟩ := meshInit_ok h2
    rw [meshNew_eq hc] at h1
    cases hc : meshCheck (Mesh.frame { rows := meshRows net.rows, attrs := net.attrs }) with
    | ok u => rfl
    | error e => rw [hc] at h1; simp [Except.map] at h1
  · intro k f hf
    obtain ⟨r, hr, hA, hB⟩ := hends k f hf
    obtain ⟨q, hr⟩ := List.mem_iff_getElem?.1 hr
    obtain ⟨place, hp⟩ := C26_constraints h2
    obtain ⟨a, ha, ha1, -⟩ := hp.endA q r hr
    have := beams_of_ended he h2 ha
    rw [ha1.fiber, hA] at this
    obtain ⟨s1, s2, s3⟩ := this
    refine ⟨?_, s2, s3⟩
    have e : halfLengthR N.fl m (k : Int) = N.fl (f.l / 2) := by simp [halfLengthR, hf]
    rw [s1, e]
    have hl := goodMat_pos h f (List.mem_of_getElem? hf)
    have h3 := hN.rounds.err (f.l / 2)
    rw [abs_of_pos (show 0 < f.l / 2 by linarith)] at h3
    calc |2 * N.fl (f.l / 2) - f.l| = |2 * (N.fl (f.l / 2) - f.l / 2)| := by congr 1; ring
      _ = 2 * |N.fl (f.l / 2) - f.l / 2| := by rw [abs_mul, abs_of_pos (by norm_num : (0 : K) < 2)]
      _ ≤ _ := by linarith

/-! ### Heights -/

theorem candidateR_flat (hz : IgnoresHeights N) {a b : Nat} {f g : Fiber K} (hf : f.w = 0) (hg : g.w = 0) :
    candidateR N ((a, flat f), (b, flat g)) = candidateR N ((a, f), (b, g)) := by
  have h1 : N.sol (flat f) (flat g) = N.sol f g := hz f g hf hg 0 0
  simp only [candidateR, h1]
  rfl

theorem ext_flatR (fl : K → K) (periodic : Bool) (S : K) (fs : List (Fiber K)) :
    extFibersR fl periodic S (fs.map flat) = (extFibersR fl periodic S fs).map (fun p => (p.1, flat p.2)) := by
  unfold extFibersR
  cases periodic with
  | false => exact plain_flat fs
  | true =>
    simp only [if_true, periodicFibersR, maxLength_flat, plain_flat, List.map_append, List.map_map, List.filter_map]
    rfl

theorem netCandsR_flat (hz : IgnoresHeights N) (periodic : Bool) (S : K) {fs : List (Fiber K)} (hw : ∀ f ∈ fs, f.w = 0) :
    netCandsR N periodic S (fs.map flat) = netCandsR N periodic S fs := by
  unfold netCandsR
  rw [ext_flatR, triu_map, List.filterMap_map]
  congr 1
  refine List.filterMap_congr ?_
  rintro ⟨⟨a, f⟩, ⟨b, g⟩⟩ hp
  obtain ⟨h1, h2⟩ := mem_triu hp
  obtain ⟨f0, hf0, hf, -⟩ := ext_imageR h1
  obtain ⟨g0, hg0, hg, -⟩ := ext_imageR h2
  simp only at hf hg
  exact candidateR_flat hz (hf.dir.2.2.trans (hw f0 (List.mem_of_getElem? hf0))) (hg.dir.2.2.trans (hw g0 (List.mem_of_getElem? hg0)))

theorem finds_same (hE : FindsEnds N m) (hz : SameExceptZ m m') : FindsEnds N m' := by
  intro e he f g hf hg
  have := List.mem_map_of_mem (f := flat) he
  rw [show m'.fibers.map flat = m.fibers.map flat from hz.2.symm] at this
  obtain ⟨e0, he0, ee⟩ := List.mem_map.1 this
  have h1 := congrArg Fiber.u ee
  have h2 := congrArg Fiber.v ee
  have h3 := congrArg Fiber.w ee
  simp only [flat] at h1 h2 h3
  unfold SameDir at hf hg
  rw [← h1, ← h2, ← h3] at hf hg
  exact hE e0 he0 f g hf hg

/-- C92: heights do not change the connections of horizontal fibers. -/
theorem C92_heights (hN : SoundArith N u) (hE : FindsEnds N m) (hI : IgnoresHeights N) (h : GoodMat m) (h' : GoodMat m')
    (hw : ∀ f ∈ m.fibers, f.w = 0) (hz : SameExceptZ m m') (hn : netNewR N m periodic = .ok net)
    (hn' : netNewR N m' periodic = .ok net') :
    net.attrs = net'.attrs ∧
    net.rows.map (fun r => (r.A, r.B, r.sA, r.sB, r.xA, r.yA, r.xB, r.yB)) =
      net'.rows.map (fun r => (r.A, r.B, r.sA, r.sB, r.xA, r.yA, r.xB, r.yB)) := by
  have hE' := finds_same hE hz
  have hw' := same_planar hz hw
  obtain ⟨hattrs, hz⟩ := hz
  obtain ⟨S, hS, -, -, rfl⟩ := netNewR_ok hN hE h hn
  obtain ⟨S', hS', -, -, rfl⟩ := netNewR_ok hN hE' h' hn'
  rw [← hattrs, hS] at hS'; cases hS'
  have hz' : m.fibers.map flat = m'.fibers.map flat := hz
  refine ⟨by simp [hattrs], ?_⟩
  simp only [List.map_map]
  rw [← netCandsR_flat hI periodic S hw, ← netCandsR_flat hI periodic S hw', ← hz']
  refine List.map_congr_left ?_
  intro c hc
  have e : ∀ i : Nat, flat (m.fibers.getD i Fiber.zero) = flat (m'.fibers.getD i Fiber.zero) := by
    intro i
    have e1 : ∀ fs : List (Fiber K), flat (fs.getD i Fiber.zero) = (fs.map flat).getD i (flat Fiber.zero) := by
      intro fs
      simp only [List.getD_eq_getElem?_getD, List.getElem?_map]
      cases fs[i]? <;> rfl
    rw [e1, e1, hz']
  have ea := e c.A
  have eb := e c.B
  simp only [flat, Fiber.mk.injEq] at ea eb
  simp only [Function.comp, netRowR, ea, eb]

/-- Heights of the rows of horizontal fibers. -/
theorem row_heightsR (hN : SoundArith N u) (hE : FindsEnds N m) (h : GoodMat m) (hw : ∀ f ∈ m.fibers, f.w = 0)
    (hfmt : ∀ f ∈ m.fibers, N.fl f.z = f.z) (hn : netNewR N m periodic = .ok net) {r : NetRow K} (hr : r ∈ net.rows) :
    r.zA = heightOf m r.A.toNat ∧ r.zB = heightOf m r.B.toNat := by
  obtain ⟨S, hS, -, -, rfl⟩ := netNewR_ok hN hE h hn
  obtain ⟨c, hc, rfl⟩ := List.mem_map.1 hr
  obtain ⟨f, g, hp⟩ := netCandsR_mem hN hE (goodMat_pos h) hc
  have hf := List.mem_of_getElem? hp.getA
  have hg := List.mem_of_getElem? hp.getB
  rw [netRowR_of hp.getA hp.getB]
  simp only [heightOf, Int.toNat_natCast, hp.getA, hp.getB, Option.map_some, Option.getD_some, hw f hf, hw g hg, mul_zero,
    hN.rounds.zero, add_zero]
  exact ⟨hfmt f hf, hfmt g hg⟩

/-! ### Crossings -/

theorem moved_near {fl : K → K} (hr : Rounds fl u) {S x y : K} (hS : 0 ≤ S) (h1 : -(S / 2) ≤ x) (h2 : x ≤ S / 2) (hm : MovedTo fl S x y) :
    ∃ i : ℤ, |y - (x + i * S)| ≤ u * (3 / 2 * S) := by
  have hu0 := hr.u_nonneg
  have hx : |x| ≤ S / 2 := abs_le.2 ⟨by linarith, h2⟩
  rcases hm with rfl | rfl | rfl
  · exact ⟨0, by simp; positivity⟩
  · refine ⟨1, ?_⟩
    have := hr.err (x + S)
    have h3 : |x + S| ≤ 3 / 2 * S := (abs_add_le _ _).trans (by rw [abs_of_nonneg hS]; linarith)
    simpa using this.trans (mul_le_mul_of_nonneg_left h3 hu0)
  · refine ⟨-1, ?_⟩
    have := hr.err (x - S)
    have h3 : |x - S| ≤ 3 / 2 * S := (abs_sub _ _).trans (by rw [abs_of_nonneg hS]; linarith)
    have h4 := this.trans (mul_le_mul_of_nonneg_left h3 hu0)
    rw [show x + ((-1 : ℤ) : K) * S = x - S by push_cast; ring]
    exact h4

/-- C92: the two nodes of a connection are at the same place seen from above, up to whole boxes, to the error of the linear solver and
to the rounding errors of the copies. -/
theorem C92_crossing (hN : SoundArith N u) (hE : FindsEnds N m) (h : GoodMat m) {S : K} (hS : m.attrs.size = some S) {η : K}
    (hn : netNewR N m periodic = .ok net) {r : NetRow K} (hr : r ∈ net.rows) (hAB : r.A < r.B) {f g : Fiber K} (hj : Joins m r f g)
    (hfg : MeetsWithin N η f g) (hgf : MeetsWithin N η g f) :
    ∃ i j : ℤ, (periodic = false → i = 0 ∧ j = 0) ∧
      |(f.x + r.sA * f.u) - (g.x + i * S + r.sB * g.u)| ≤ η + 3 * u * S ∧
      |(f.y + r.sA * f.v) - (g.y + j * S + r.sB * g.v)| ≤ η + 3 * u * S := by
  obtain ⟨S', hS', hgood, -, rfl⟩ := netNewR_ok hN hE h hn
  rw [hS] at hS'; cases hS'
  obtain ⟨c, hc, rfl⟩ := List.mem_map.1 hr
  obtain ⟨f0, g0, hp⟩ := netCandsR_mem hN hE (goodMat_pos h) hc
  rw [netRowR_of hp.getA hp.getB] at hj hAB ⊢
  obtain ⟨a, b, ha, hb, hfa, hgb⟩ := hj
  simp only [Nat.cast_inj, Nat.cast_lt] at ha hb hAB ⊢
  subst ha; subst hb
  have e1 := hp.getA; rw [hfa] at e1; cases e1
  have e2 := hp.getB; rw [hgb] at e2; cases e2
  obtain ⟨in1, in2, f', g', cf, cg, hper, hsol⟩ := hp.inner hAB
  have hfm := List.mem_of_getElem? hfa
  have hgm := List.mem_of_getElem? hgb
  have gf := hgood f hfm
  have gg := hgood g hgm
  have hS0 : 0 ≤ S := by have := gf.x1.trans gf.x2; linarith
  have hu0 := hN.rounds.u_nonneg
  have meets : |(f'.x + c.sA * f.u) - (g'.x + c.sB * g.u)| ≤ η ∧ |(f'.y + c.sA * f.v) - (g'.y + c.sB * g.v)| ≤ η := by
    obtain ⟨d1, d2, d3⟩ := cf.dir
    obtain ⟨d4, d5, d6⟩ := cg.dir
    rcases hsol with hs | hs
    · obtain ⟨q1, q2⟩ := hfg f' g' _ cf.dir cg.dir hs in1 (by rw [abs_neg]; exact in2)
      rw [d1, d4] at q1
      rw [d2, d5] at q2
      constructor
      · convert q1 using 2; ring
      · convert q2 using 2; ring
    · obtain ⟨q1, q2⟩ := hgf g' f' _ cg.dir cf.dir hs in2 (by rw [abs_neg]; exact in1)
      rw [d1, d4, abs_sub_comm] at q1
      rw [d2, d5, abs_sub_comm] at q2
      constructor
      · convert q1 using 2; ring
      · convert q2 using 2; ring
  cases periodic with
  | false =>
    obtain ⟨rfl, rfl⟩ := hper rfl
    refine ⟨0, 0, fun _ => ⟨rfl, rfl⟩, ?_, ?_⟩
    · simp only [Int.cast_zero, zero_mul, add_zero]
      have : 0 ≤ 3 * u * S := by positivity
      linarith [meets.1]
    · simp only [Int.cast_zero, zero_mul, add_zero]
      have : 0 ≤ 3 * u * S := by positivity
      linarith [meets.2]
  | true =>
    obtain ⟨i1, k1⟩ := moved_near hN.rounds hS0 gf.x1 gf.x2 cf.x
    obtain ⟨j1, k2⟩ := moved_near hN.rounds hS0 gf.y1 gf.y2 cf.y
    obtain ⟨i2, k3⟩ := moved_near hN.rounds hS0 gg.x1 gg.x2 cg.x
    obtain ⟨j2, k4⟩ := moved_near hN.rounds hS0 gg.y1 gg.y2 cg.y
    have tri : ∀ p q p' q' e e' D : K, |p' - p| ≤ D → |q' - q| ≤ D → |(p' + e) - (q' + e')| ≤ η → |(p + e) - (q + e')| ≤ η + 2 * D := by
      intro p q p' q' e e' D a1 a2 a3
      rw [abs_le] at a1 a2 a3 ⊢
      constructor <;> linarith [a1.1, a1.2, a2.1, a2.2, a3.1, a3.2]
    refine ⟨i2 - i1, j2 - j1, by simp, ?_, ?_⟩
    · have := tri _ _ _ _ _ _ _ k1 k3 meets.1
      calc _ = |f.x + i1 * S + c.sA * f.u - (g.x + i2 * S + c.sB * g.u)| := by congr 1; push_cast; ring
        _ ≤ _ := this
        _ = _ := by ring
    · have := tri _ _ _ _ _ _ _ k2 k4 meets.2
      calc _ = |f.y + j1 * S + c.sA * f.v - (g.y + j2 * S + c.sB * g.v)| := by congr 1; push_cast; ring
        _ ≤ _ := this
        _ = _ := by ring

theorem margin_factor {ν μ : K} (hu0 : 0 ≤ u) (hν : 0 ≤ ν) (hμ : ν + 3 * u + 2 / 10 ^ 5 ≤ μ) :
    (1 + u) * (1 + (1 / 10 ^ 5 + 1 / 10 ^ 8)) * (1 - μ) ≤ (1 - ν) * (1 - 2 * u) := by
  have h0 : (0 : K) < 2 / 10 ^ 5 := by norm_num
  have h1 : (1 + (1 / 10 ^ 5 + 1 / 10 ^ 8)) * (1 - μ) ≤ 1 - ν - 3 * u := by
    have h2 : (1 / 10 ^ 5 + 1 / 10 ^ 8) * (1 - μ) ≤ (1 / 10 ^ 5 + 1 / 10 ^ 8) * 1 :=
      mul_le_mul_of_nonneg_left (by linarith) (by norm_num)
    have h3 : (1 / 10 ^ 5 + 1 / 10 ^ 8 : K) ≤ 2 / 10 ^ 5 := by norm_num
    linarith
  have h4 : u * ((1 + (1 / 10 ^ 5 + 1 / 10 ^ 8)) * (1 - μ)) ≤ u * 1 := mul_le_mul_of_nonneg_left (by linarith) hu0
  have h5 := mul_nonneg hu0 hν
  calc _ = (1 + (1 / 10 ^ 5 + 1 / 10 ^ 8)) * (1 - μ) + u * ((1 + (1 / 10 ^ 5 + 1 / 10 ^ 8)) * (1 - μ)) := by ring
    _ ≤ (1 - ν - 3 * u) + u * 1 := add_le_add h1 h4
    _ ≤ _ := by linarith

/-- The centres of two fibers that cross away from their ends are found to be close. -/
theorem cross_close (hN : SoundArith N u) {S ν μ : K} (hnt : NearTest N ν) (hν : 0 ≤ ν) (hμ : ν + 3 * u + 2 / 10 ^ 5 ≤ μ) (hμ1 : μ ≤ 1)
    {p q : Fiber K} {s t : K} (gp : GoodFiber S p) (gq : GoodFiber S q) (hs : |s| ≤ (1 - μ) * (p.l / 2)) (ht : |t| ≤ (1 - μ) * (q.l / 2))
    (hx : p.x + s * p.u = q.x + t * q.u) (hy : p.y + s * p.v = q.y + t * q.v) :
    N.closer (N.fl (p.x - q.x)) (N.fl (p.y - q.y)) (N.fl (N.fl (p.l + q.l) / 2)) = true := by
  have hr := hN.rounds
  have hu0 := hr.u_nonneg
  set ρ : K := 1 + (1 / 10 ^ 5 + 1 / 10 ^ 8) with hρ
  have hρ1 : 1 ≤ ρ := by rw [hρ]; norm_num
  have hU : p.u ^ 2 + p.v ^ 2 ≤ ρ ^ 2 := by
    have : p.u ^ 2 + p.v ^ 2 + p.w ^ 2 ≤ ρ ^ 2 := gp.dir2
    linarith [sq_nonneg p.w]
  have hV : q.u ^ 2 + q.v ^ 2 ≤ ρ ^ 2 := by
    have : q.u ^ 2 + q.v ^ 2 + q.w ^ 2 ≤ ρ ^ 2 := gq.dir2
    linarith [sq_nonneg q.w]
  have hD : 0 < (p.l + q.l) / 2 := by have := gp.l; have := gq.l; linarith
  have hst : |s| + |t| ≤ (1 - μ) * ((p.l + q.l) / 2) := by linarith
  have hUV : |p.u * q.u + p.v * q.v| ≤ ρ ^ 2 := by
    apply abs_le_of_sq_le_sq _ (by positivity)
    have h1 : (p.u * q.u + p.v * q.v) ^ 2 ≤ (p.u ^ 2 + p.v ^ 2) * (q.u ^ 2 + q.v ^ 2) := by
      nlinarith [sq_nonneg (p.u * q.v - p.v * q.u)]
    have h2 : (p.u ^ 2 + p.v ^ 2) * (q.u ^ 2 + q.v ^ 2) ≤ ρ ^ 2 * ρ ^ 2 :=
      mul_le_mul hU hV (by positivity) (by positivity)
    linarith [show (ρ ^ 2) ^ 2 = ρ ^ 2 * ρ ^ 2 by ring]
  have e1 : p.x - q.x = t * q.u - s * p.u := by linear_combination hx
  have e2 : p.y - q.y = t * q.v - s * p.v := by linear_combination hy
  have hdist : (p.x - q.x) ^ 2 + (p.y - q.y) ^ 2 ≤ (ρ * (|s| + |t|)) ^ 2 := by
    have e3 : (p.x - q.x) ^ 2 + (p.y - q.y) ^ 2 =
        |t| ^ 2 * (q.u ^ 2 + q.v ^ 2) + |s| ^ 2 * (p.u ^ 2 + p.v ^ 2) + -(2 * (s * t) * (p.u * q.u + p.v * q.v)) := by
      rw [e1, e2, sq_abs, sq_abs]; ring
    have h3 : -(2 * (s * t) * (p.u * q.u + p.v * q.v)) ≤ 2 * (|s| * |t|) * ρ ^ 2 := by
      calc -(2 * (s * t) * (p.u * q.u + p.v * q.v)) ≤ |2 * (s * t) * (p.u * q.u + p.v * q.v)| := neg_le_abs _
        _ = 2 * (|s| * |t|) * |p.u * q.u + p.v * q.v| := by
          rw [abs_mul, abs_mul, abs_mul, abs_of_pos (by norm_num : (0 : K) < 2)]
        _ ≤ _ := mul_le_mul_of_nonneg_left hUV (by positivity)
    have h4 : |t| ^ 2 * (q.u ^ 2 + q.v ^ 2) ≤ |t| ^ 2 * ρ ^ 2 := mul_le_mul_of_nonneg_left hV (by positivity)
    have h5 : |s| ^ 2 * (p.u ^ 2 + p.v ^ 2) ≤ |s| ^ 2 * ρ ^ 2 := mul_le_mul_of_nonneg_left hU (by positivity)
    rw [e3]
    calc _ ≤ |t| ^ 2 * ρ ^ 2 + |s| ^ 2 * ρ ^ 2 + 2 * (|s| * |t|) * ρ ^ 2 := by linarith
      _ = _ := by ring
  have hfl : ∀ z : K, N.fl z ^ 2 ≤ (1 + u) ^ 2 * z ^ 2 := by
    intro z
    have h1 : |N.fl z| ≤ (1 + u) * |z| := by
      calc |N.fl z| = |(N.fl z - z) + z| := by rw [sub_add_cancel]
        _ ≤ |N.fl z - z| + |z| := abs_add_le _ _
        _ ≤ _ := by linarith [hr.err z]
    calc N.fl z ^ 2 = |N.fl z| ^ 2 := (sq_abs _).symm
      _ ≤ ((1 + u) * |z|) ^ 2 := by gcongr
      _ = _ := by rw [mul_pow, sq_abs]
  have hlow : ∀ z : K, 0 ≤ z → (1 - u) * z ≤ N.fl z := by
    intro z hz
    have := (abs_le.1 (hr.err z)).1
    rw [abs_of_nonneg hz] at this
    linarith
  have hu1 : 0 ≤ 1 - u := by linarith [hN.lt]
  have hM : (1 - 2 * u) * ((p.l + q.l) / 2) ≤ N.fl (N.fl (p.l + q.l) / 2) := by
    have h1 := hlow (p.l + q.l) (by linarith)
    have h2 := hlow (N.fl (p.l + q.l) / 2) (by
      have := mul_nonneg hu1 (show 0 ≤ p.l + q.l by linarith)
      linarith)
    have h3 := mul_le_mul_of_nonneg_left h1 hu1
    nlinarith [mul_nonneg (mul_self_nonneg u) hD.le]
  have hMpos : 0 < N.fl (N.fl (p.l + q.l) / 2) := by
    have := mul_pos (show 0 < 1 - 2 * u by
      have : 3 * u < 1 := by
        have : (0 : K) < 2 / 10 ^ 5 := by norm_num
        linarith
      linarith) hD
    linarith
  refine hnt _ _ _ hMpos ?_
  have hfac := margin_factor (K := K) hu0 hν hμ
  rw [← hρ] at hfac
  have hν1 : 0 ≤ 1 - ν := by
    have : (0 : K) < 2 / 10 ^ 5 := by norm_num
    linarith
  have hfin : (1 + u) * (ρ * (|s| + |t|)) ≤ (1 - ν) * N.fl (N.fl (p.l + q.l) / 2) := by
    calc (1 + u) * (ρ * (|s| + |t|)) ≤ (1 + u) * (ρ * ((1 - μ) * ((p.l + q.l) / 2))) := by gcongr
      _ = ((1 + u) * ρ * (1 - μ)) * ((p.l + q.l) / 2) := by ring
      _ ≤ ((1 - ν) * (1 - 2 * u)) * ((p.l + q.l) / 2) := mul_le_mul_of_nonneg_right hfac hD.le
      _ = (1 - ν) * ((1 - 2 * u) * ((p.l + q.l) / 2)) := by ring
      _ ≤ _ := mul_le_mul_of_nonneg_left hM hν1
  calc _ ≤ (1 + u) ^ 2 * (p.x - q.x) ^ 2 + (1 + u) ^ 2 * (p.y - q.y) ^ 2 := add_le_add (hfl _) (hfl _)
    _ = (1 + u) ^ 2 * ((p.x - q.x) ^ 2 + (p.y - q.y) ^ 2) := by ring
    _ ≤ (1 + u) ^ 2 * (ρ * (|s| + |t|)) ^ 2 := mul_le_mul_of_nonneg_left hdist (by positivity)
    _ = ((1 + u) * (ρ * (|s| + |t|))) ^ 2 := by ring
    _ ≤ _ := by gcongr

/-- C92: two fibers crossing away from their ends are connected, in an open or in a periodic box. -/
theorem C92_connected (hN : SoundArith N u) (hE : FindsEnds N m) (h : GoodMat m) (hn : netNewR N m periodic = .ok net) {ν μ η : K}
    (hnt : NearTest N ν) (hν : 0 ≤ ν) (hμ : ν + 3 * u + 2 / 10 ^ 5 ≤ μ) (hμ1 : μ ≤ 1) {a b : ℕ} {f g : Fiber K} (hab : a < b)
    (hf : m.fibers[a]? = some f) (hg : m.fibers[b]? = some g) {s t : K} (hs : |s| ≤ (1 - μ) * (f.l / 2)) (ht : |t| ≤ (1 - μ) * (g.l / 2))
    (hx : f.x + s * f.u = g.x + t * g.u) (hy : f.y + s * f.v = g.y + t * g.v)
    (hsol : SolvesWithin N η f g s t) (hηf : 2 * η < (μ - u) * f.l) (hηg : 2 * η < (μ - u) * g.l) :
    ∃ r ∈ net.rows, r.A = (a : Int) ∧ r.B = (b : Int) := by
  have hr := hN.rounds
  have hu0 := hr.u_nonneg
  obtain ⟨S, hS, hgood, -, rfl⟩ := netNewR_ok hN hE h hn
  have gf := hgood f (List.mem_of_getElem? hf)
  have gg := hgood g (List.mem_of_getElem? hg)
  have hin : ∀ {p : Fiber K} {s R : K}, GoodFiber S p → |s| ≤ (1 - μ) * (p.l / 2) → 2 * η < (μ - u) * p.l → |R - s| ≤ η →
      |R| < N.fl (p.l / 2) := by
    intro p s R gp hs hη hR
    have h1 : |R| ≤ |R - s| + |s| := by
      calc |R| = |(R - s) + s| := by rw [sub_add_cancel]
        _ ≤ _ := abs_add_le _ _
    have h2 := (abs_le.1 (hr.err (p.l / 2))).1
    rw [abs_of_pos (show 0 < p.l / 2 by have := gp.l; linarith)] at h2
    linarith
  obtain ⟨⟨R, hR, r1, r2⟩, ⟨R', hR', r1', r2'⟩⟩ := hsol
  have hneg : ∀ {R t : K}, |R + t| ≤ η → |-R - t| ≤ η := by
    intro R t h
    rwa [show -R - t = -(R + t) by ring, abs_neg]
  have ea : (a, f) ∈ extFibersR N.fl periodic S m.fibers := ext_baseR hf
  have eb : (b, g) ∈ extFibersR N.fl periodic S m.fibers := ext_baseR hg
  have hcm : ∃ c : Cand K, c ∈ (triu (extFibersR N.fl periodic S m.fibers)).filterMap (candidateR N) ∧ c.A = a ∧ c.B = b := by
    rcases triu_complete ea eb with hp | hp
    · refine ⟨⟨a, b, R.1, -R.2⟩, List.mem_filterMap.2 ⟨_, hp, ?_⟩, rfl, rfl⟩
      simp only [candidateR, cross_close hN hnt hν hμ hμ1 gf gg hs ht hx hy, if_true, hR, Option.getD_some]
      rw [if_pos (Or.inl ⟨hin gf hs hηf r1, hin gg ht hηg (hneg r2)⟩), if_pos hab.le]
    · refine ⟨⟨a, b, -R'.2, R'.1⟩, List.mem_filterMap.2 ⟨_, hp, ?_⟩, rfl, rfl⟩
      simp only [candidateR, cross_close hN hnt hν hμ hμ1 gg gf ht hs hx.symm hy.symm, if_true, hR', Option.getD_some]
      rw [if_pos (Or.inl ⟨hin gg ht hηg r1', hin gf hs hηf (hneg r2')⟩), if_neg (by omega)]
  obtain ⟨c, hcm, cA, cB⟩ := hcm
  obtain ⟨d, hd, e1, e2⟩ := sortDedup_key hcm
  have hd' : d ∈ netCandsR N periodic S m.fibers := hd
  exact ⟨netRowR N.fl m.fibers d, List.mem_map_of_mem hd', by simp [netRowR, e1, cA], by simp [netRowR, e2, cB]⟩

/-- C92: two fibers crossing away from their ends get a connection, with abscissae within the error of the linear solver. -/
theorem C92_found (hN : SoundArith N u) (hE : FindsEnds N m) (h : GoodMat m) (hn : netNewR N m false = .ok net) {ν μ η : K}
    (hnt : NearTest N ν) (hν : 0 ≤ ν) (hμ : ν + 3 * u + 2 / 10 ^ 5 ≤ μ) (hμ1 : μ ≤ 1) {a b : ℕ} {f g : Fiber K} (hab : a < b)
    (hf : m.fibers[a]? = some f) (hg : m.fibers[b]? = some g) {s t : K} (hs : |s| ≤ (1 - μ) * (f.l / 2)) (ht : |t| ≤ (1 - μ) * (g.l / 2))
    (hx : f.x + s * f.u = g.x + t * g.u) (hy : f.y + s * f.v = g.y + t * g.v)
    (hsol : SolvesWithin N η f g s t) (hηf : 2 * η < (μ - u) * f.l) (hηg : 2 * η < (μ - u) * g.l) :
    ∃ r ∈ net.rows, r.A = (a : Int) ∧ r.B = (b : Int) ∧ |r.sA - s| ≤ η ∧ |r.sB - t| ≤ η := by
  have hr := hN.rounds
  have hu0 := hr.u_nonneg
  obtain ⟨S, hS, hgood, -, rfl⟩ := netNewR_ok hN hE h hn
  have gf := hgood f (List.mem_of_getElem? hf)
  have gg := hgood g (List.mem_of_getElem? hg)
  have hin : ∀ {p : Fiber K} {s R : K}, GoodFiber S p → |s| ≤ (1 - μ) * (p.l / 2) → 2 * η < (μ - u) * p.l → |R - s| ≤ η →
      |R| < N.fl (p.l / 2) := by
    intro p s R gp hs hη hR
    have h1 : |R| ≤ |R - s| + |s| := by
      calc |R| = |(R - s) + s| := by rw [sub_add_cancel]
        _ ≤ _ := abs_add_le _ _
    have h2 := (abs_le.1 (hr.err (p.l / 2))).1
    rw [abs_of_pos (show 0 < p.l / 2 by have := gp.l; linarith)] at h2
    linarith
  obtain ⟨⟨R, hR, r1, r2⟩, ⟨R', hR', r1', r2'⟩⟩ := hsol
  have hneg : ∀ {R t : K}, |R + t| ≤ η → |-R - t| ≤ η := by
    intro R t h
    rwa [show -R - t = -(R + t) by ring, abs_neg]
  have ea : (a, f) ∈ extFibersR N.fl false S m.fibers := ext_baseR hf
  have eb : (b, g) ∈ extFibersR N.fl false S m.fibers := ext_baseR hg
  have hcm : ∃ c : Cand K, c ∈ (triu (extFibersR N.fl false S m.fibers)).filterMap (candidateR N) ∧ c.A = a ∧ c.B = b := by
    rcases triu_complete ea eb with hp | hp
    · refine ⟨⟨a, b, R.1, -R.2⟩, List.mem_filterMap.2 ⟨_, hp, ?_⟩, rfl, rfl⟩
      simp only [candidateR, cross_close hN hnt hν hμ hμ1 gf gg hs ht hx hy, if_true, hR, Option.getD_some]
      rw [if_pos (Or.inl ⟨hin gf hs hηf r1, hin gg ht hηg (hneg r2)⟩), if_pos hab.le]
    · refine ⟨⟨a, b, -R'.2, R'.1⟩, List.mem_filterMap.2 ⟨_, hp, ?_⟩, rfl, rfl⟩
      simp only [candidateR, cross_close hN hnt hν hμ hμ1 gg gf ht hs hx.symm hy.symm, if_true, hR', Option.getD_some]
      rw [if_pos (Or.inl ⟨hin gg ht hηg r1', hin gf hs hηf (hneg r2')⟩), if_neg (by omega)]
  obtain ⟨c, hcm, cA, cB⟩ := hcm
  obtain ⟨d, hd, e1, e2⟩ := sortDedup_key hcm
  have hd' : d ∈ netCandsR N false S m.fibers := hd
  obtain ⟨f0, g0, hp⟩ := netCandsR_mem hN hE (goodMat_pos h) hd'
  have k1 := hp.getA
  have k2 := hp.getB
  rw [e1, cA, hf] at k1; cases k1
  rw [e2, cB, hg] at k2; cases k2
  obtain ⟨-, -, f', g', -, -, hper, hs'⟩ := hp.inner (by omega)
  obtain ⟨rfl, rfl⟩ := hper rfl
  refine ⟨netRowR N.fl m.fibers d, List.mem_map_of_mem hd', by simp [netRowR, e1, cA], by simp [netRowR, e2, cB], ?_, ?_⟩
  · simp only [netRowR]
    rcases hs' with hs' | hs'
    · rw [hR] at hs'; cases hs'; exact r1
    · rw [hR'] at hs'; cases hs'
      have := hneg r2'
      rwa [neg_neg] at this
  · simp only [netRowR]
    rcases hs' with hs' | hs'
    · rw [hR] at hs'; cases hs'
      have := hneg r2
      rwa [neg_neg] at this
    · rw [hR'] at hs'; cases hs'; exact r1'

end
end Fibermat
