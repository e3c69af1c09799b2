import Verif.Props.RoundedAssembly
import Verif.Props.Stack
import Verif.Props.RoundedNet
import Verif.Props.Constraint

/-! # C91: stacking and compressing with rounded arithmetic -/

set_option linter.unusedSectionVars false

namespace Fibermat
open Spec
variable {K : Type} [Field K] [LinearOrder K] [IsStrictOrderedRing K]

section
variable {N : NetArith K} {A : Floats K} {o : Opts K} {fl : K → K} {u κ ε : K} {lp : Linprog K} {m m' : Mat K} {periodic : Bool} {net st : Net K}
  {threshold : Option K} {mesh : Mesh K} {lmin lmax : Option K} {coupling : K}

/-- C91: without rounding errors, the rounded stack is the exact one. -/
theorem C91_stack_exact (lp : Linprog K) (m : Mat K) (net : Net K) (threshold : Option K) :
    stackNewR NetArith.exact lp m net threshold = stackNew lp m net threshold := by
  unfold stackNewR stackNew stackSolve stackConstraint
  simp only [C92_exact, show (NetArith.exact (K := K)).fl = id from rfl]
  cases h1 : matCheck m.frame with
  | error e => rfl
  | ok _ =>
    cases h2 : netCheck net.frame with
    | error e => rfl
    | ok _ =>
      simp only [bind, Except.bind, pure, Except.pure, throw, throwThe, MonadExceptOf.throw]
      split_ifs with c1 c2 c3
      all_goals first | rfl | omega | skip
      have e : stackLpR id m net = StackSys.lp (stackSysOf m net) := by
        simp only [stackLpR, StackSys.lp, stackSysOf, id_eq]
      rw [e]
      cases hz : lp (stackSysOf m net).lp <;> (unfold stackSysOf at hz; simp only [hz]; try rfl)

theorem netNewR_over (h : GoodMat m) (hN : SafeNet N u m) (hn : netNewR N m periodic = .ok net) :
    netCheck net.frame = .ok () ∧ OverMat m net.rows ∧ net.attrs.periodic = some periodic := by
  obtain ⟨-, ho, hv, hp, -⟩ := netNewR_ended hN.sound hN.ends h hn
  exact ⟨(C14_netCheck_iff _).2 (Or.inr hv), ho, hp⟩

theorem SafeNet_same (hN : SafeNet N u m) (h : SameExceptZ m m') : SafeNet N u m' := ⟨hN.sound, finds_same hN.ends h, hN.heights⟩

/-- Stacked heights are numbers of the format. -/
theorem setZ_format (hfmt : InFormat N.fl lp) {q : LP K} {z : List K} (hz : lp q = some z) (hl : z.length = m.fibers.length) :
    ∀ f ∈ (m.setZ z).fibers, N.fl f.z = f.z := by
  intro f hf
  obtain ⟨i, hi⟩ := List.mem_iff_getElem?.1 hf
  have hi' : i < m.fibers.length := by rw [← setZ_length hl]; exact (List.getElem?_eq_some_iff.1 hi).1
  have e2 : comp z i = f.z := by
    have := setZ_heightOf hl hi'
    rw [← this]; simp [heightOf, hi]
  rw [← e2]
  have hz' : z[i]? = some z[i] := List.getElem?_eq_getElem (by omega)
  have : comp z i = z[i] := by simp [comp, hz']
  rw [this]
  exact hfmt _ _ hz _ (List.getElem_mem _)

/-- What is left of the network of the stacked mat. -/
theorem stackR_cases (h : GoodMat m) (hne : m.fibers ≠ []) (hN : SafeNet N u m) (hn : netNewR N m periodic = .ok net)
    (hst : stackNewR N lp m net threshold = .ok (m', st)) :
    ∃ z net', lp (stackLpR N.fl m net) = some z ∧ z.length = m.fibers.length ∧ m' = m.setZ z ∧ GoodMat m' ∧ SameExceptZ m m' ∧
      netNewR N m' periodic = .ok net' ∧
      ∃ p : NetRow K → Bool, st = ⟨net'.rows.filter p, net'.attrs⟩ ∧ (∀ r, r.A = r.B → p r = true) := by
  obtain ⟨hck, ho, hper⟩ := netNewR_over h hN hn
  unfold stackNewR at hst
  have hm := (matCheck_frame_iff m).2 (Or.inr h)
  rw [hm, hck] at hst
  simp only [bind, Except.bind, pure, Except.pure, throw, throwThe, MonadExceptOf.throw] at hst
  rw [if_neg] at hst
  · rw [if_neg (by simpa using hne)] at hst
    cases hz : lp (stackLpR N.fl m net) with
    | none => rw [hz] at hst; cases hst
    | some z =>
      rw [hz] at hst
      simp only at hst
      by_cases hl : z.length = m.fibers.length
      · rw [if_neg (by simpa using hl), hper] at hst
        simp only [Option.getD_some] at hst
        cases h1 : netNewR N (m.setZ z) periodic with
        | error e => rw [h1] at hst; cases hst
        | ok net' =>
          rw [h1] at hst
          simp only at hst
          split at hst
          · cases hst
          · simp only [Except.ok.injEq, Prod.mk.injEq] at hst
            obtain ⟨rfl, rfl⟩ := hst
            refine ⟨z, net', rfl, hl, rfl, setZ_good h hl, setZ_same hl, h1, ?_⟩
            cases threshold with
            | none => exact ⟨fun _ => true, by simp, fun _ _ => rfl⟩
            | some t => exact ⟨fun r => decide (|N.fl (r.zB - r.zA)| ≤ t ∨ r.A = r.B), rfl, fun r hr => by simp [hr]⟩
      · rw [if_pos hl] at hst; cases hst
  · have : (innerRows net.rows).all (fun r => decide (0 ≤ r.A) && decide (r.A < m.fibers.length)
        && decide (0 ≤ r.B) && decide (r.B < m.fibers.length)) = true := by
      rw [List.all_eq_true]
      intro r hr
      obtain ⟨h1, h2, h3⟩ := ho r (List.mem_of_mem_filter hr)
      simp only [Bool.and_eq_true, decide_eq_true_eq]
      omega
    rw [this]; simp

/-- Lower bounds of a solution of the rounded program. -/
theorem nearFeasible_heights (ho : OverMat m net.rows) {z : List K}
    (hz : NearFeasible ε (stackLpR fl m net) z) :
    (∀ i, i < m.fibers.length → fl (thick m i / 2) - ε ≤ comp z i) ∧
      ∀ r ∈ net.rows, r.A < r.B → fl (fl (thick m r.A.toNat + thick m r.B.toNat) / 2) - ε ≤ comp z r.B.toNat - comp z r.A.toNat := by
  have hf : (stackLpR fl m net).f.length = m.fibers.length := by simp [stackLpR]
  constructor
  · intro i hi
    have := hz.lower i (by rw [hf]; exact hi)
    have e : (stackLpR fl m net).lower = m.fibers.map (fun f => fl (f.h / 2)) := by simp [stackLpR]
    rwa [e, comp_map _ _ (List.getElem?_eq_getElem hi), ← thick_of (List.getElem?_eq_getElem hi)] at this
  · intro r hr hlt
    obtain ⟨k, hk⟩ := List.mem_iff_getElem?.1 (mem_innerRows.2 ⟨hr, hlt⟩)
    have := hz.rows k (List.getElem?_eq_some_iff.1 hk).1
    have e : (stackLpR fl m net).H =
        (innerRows net.rows).map (fun r => -(fl (fl (thick m r.A.toNat + thick m r.B.toNat) / 2))) := by
      simp only [stackLpR, comp_h]
    have e2 := stack_row ho hk (comp z)
    change ∑ j ∈ Finset.range m.fibers.length, (stackLpR fl m net).C.get k j * comp z j = _ at e2
    rw [hf, e, comp_map _ _ hk, e2] at this
    linarith

theorem half_low (hr : Rounds fl u) {h : K} (h0 : 0 ≤ h) : (1 - u) * (h / 2) ≤ fl (h / 2) := by
  have := (abs_le.1 (hr.err (h / 2))).1
  rw [abs_of_nonneg (show 0 ≤ h / 2 by linarith)] at this
  linarith

theorem pair_low (hr : Rounds fl u) (hu : u ≤ 1) {h : K} (h0 : 0 ≤ h) : (1 - 2 * u) * (h / 2) ≤ fl (fl h / 2) := by
  have h1 := (abs_le.1 (hr.err h)).1
  rw [abs_of_nonneg h0] at h1
  have h2 : 0 ≤ fl h := by
    have : 0 ≤ (1 - u) * h := mul_nonneg (by linarith) h0
    linarith
  have h3 := half_low hr h2
  have h4 : (1 - u) * ((1 - u) * (h / 2)) ≤ (1 - u) * (fl h / 2) := mul_le_mul_of_nonneg_left (by linarith) (by linarith)
  nlinarith [mul_nonneg (mul_self_nonneg u) h0]

/-- C91: the stacked fibers overlap at most by the error of the linear programming solver and by the rounding errors. -/
theorem C91_stack (hlp : NearLinprog ε lp) (h : GoodMat m) (hw : ∀ f ∈ m.fibers, f.w = 0) (hN : SafeNet N u m) (hn : netNewR N m periodic = .ok net)
    (hfmt : InFormat N.fl lp) (hst : stackNewR N lp m net threshold = .ok (m', st)) :
    SameExceptZ m m' ∧ (∀ f ∈ m'.fibers, (1 - u) * (f.h / 2) - ε ≤ f.z) ∧
      ∀ r ∈ st.rows, r.A < r.B → (1 - 2 * u) * ((thick m' r.A.toNat + thick m' r.B.toNat) / 2) - ε ≤ r.zB - r.zA := by
  have hr := hN.sound.rounds
  have hu := hN.sound.lt.le
  by_cases hne : m.fibers = []
  · unfold stackNewR at hst
    obtain ⟨hck, ho, hper⟩ := netNewR_over h hN hn
    have h0 : net.rows = [] := by
      rw [List.eq_nil_iff_forall_not_mem]
      intro r hr
      obtain ⟨h1, h2, h3⟩ := ho r hr
      rw [hne] at h3
      simp at h3
      omega
    rw [(matCheck_frame_iff m).2 (Or.inr h), hck] at hst
    simp only [bind, Except.bind, pure, Except.pure, throw, throwThe, MonadExceptOf.throw, h0, innerRows, List.filter_nil, List.all_nil,
      hne, List.length_nil] at hst
    simp only [Bool.not_true, Bool.false_eq_true, if_false, if_true, Except.ok.injEq, Prod.mk.injEq] at hst
    obtain ⟨rfl, rfl⟩ := hst
    exact ⟨⟨rfl, rfl⟩, by simp [hne], by simp [h0]⟩
  obtain ⟨hck, ho, hper⟩ := netNewR_over h hN hn
  obtain ⟨z, net', hz, hl, rfl, hgood, hsame, h1, p, rfl, -⟩ := stackR_cases h hne hN hn hst
  obtain ⟨b1, b2⟩ := nearFeasible_heights ho (hlp _ _ hz)
  have hthick : ∀ i, thick (m.setZ z) i = thick m i := same_thick hsame
  have hpos : ∀ f ∈ (m.setZ z).fibers, 0 < f.h := by
    obtain ⟨S, -, hS⟩ := hgood.size
    intro f hf
    exact (GoodFiber.solid (hS f hf)).h
  have hpt : ∀ i, 0 ≤ thick m i := by
    intro i
    rw [← hthick]
    unfold thick
    cases hi : (m.setZ z).fibers[i]? with
    | none => simp
    | some f => exact (hpos f (List.mem_of_getElem? hi)).le
  refine ⟨hsame, ?_, ?_⟩
  · intro f hf
    obtain ⟨i, hi⟩ := List.mem_iff_getElem?.1 hf
    have hi' : i < m.fibers.length := by rw [← setZ_length hl]; exact (List.getElem?_eq_some_iff.1 hi).1
    have h2 := b1 i hi'
    have e : thick m i = f.h := by rw [← hthick, thick_of hi]
    have e2 : comp z i = f.z := by
      have := setZ_heightOf hl hi'
      rw [← this]; simp [heightOf, hi]
    rw [e, e2] at h2
    have := half_low hr (hpos f hf).le
    linarith
  · intro r hrm hlt
    have hrn := List.mem_of_mem_filter hrm
    obtain ⟨e1, e2⟩ := C92_heights hN.sound hN.ends hN.heights h hgood hw hsame hn h1
    obtain ⟨q, hq, hA, hB⟩ := plan_mem (rows := net'.rows) (rows' := net.rows) e2.symm hrn
    obtain ⟨z1, z2⟩ := row_heightsR hN.sound (finds_same hN.ends hsame) hgood (same_planar hsame hw) (setZ_format hfmt hz hl) h1 hrn
    obtain ⟨o1, o2, o3⟩ := ho q hq
    rw [z1, z2, hthick, hthick, ← hA, ← hB, setZ_heightOf hl (by omega), setZ_heightOf hl (by omega)]
    have h2 := b2 q hq (by omega)
    have := pair_low hr hu (add_nonneg (hpt q.A.toNat) (hpt q.B.toNat))
    linarith

/-- The mesh of a network of which some connections have been removed. -/
theorem filtered_facts (hgood : GoodMat m) (hne : m.fibers ≠ []) (hN : SafeNet N u m) (g1 : netNewR N m periodic = .ok net) {p : NetRow K → Bool}
    (hself : ∀ r, r.A = r.B → p r = true) :
    ∃ mesh, meshNew ⟨net.rows.filter p, net.attrs⟩ = .ok mesh ∧ meshInit ⟨net.rows.filter p, net.attrs⟩ = .ok mesh ∧
      ValidMesh mesh.frame ∧ OverFibers m mesh.rows ∧ mesh.rows ≠ [] ∧
      (∃ i, StartsBeam mesh.rows i ∧ 0 < beamLength mesh.rows i) ∧
      ∀ (k : ℕ) (f : Fiber K), m.fibers[k]? = some f → ∃ a ∈ mesh.rows, a.fiber = (k : Int) := by
  obtain ⟨hend0, hov, hv0, -, hends0⟩ := netNewR_ended hN.sound hN.ends hgood g1
  have hvn : ValidNet (Net.frame ⟨net.rows.filter p, net.attrs⟩) := valid_sublist List.filter_sublist hv0
  have hend : Ended (net.rows.filter p) (halfLengthR N.fl m) := hend0.filter p (fun r _ => hself r)
  obtain ⟨mesh, e1, h3⟩ := meshNew_of_ended (net := ⟨net.rows.filter p, net.attrs⟩) ((C14_netCheck_iff _).2 (Or.inr hvn)) hend
  obtain ⟨place, hp⟩ := C26_constraints h3
  have hover : ∀ r ∈ net.rows.filter p, 0 ≤ r.A ∧ r.A ≤ r.B ∧ r.B < (m.fibers.length : Int) := by
    intro r hr
    exact hov r (List.mem_filter.1 hr).1
  have hends : ∀ (k : ℕ) (f : Fiber K), m.fibers[k]? = some f → ∃ (i : ℕ) (a : MeshRow K), mesh.rows[i]? = some a ∧ a.fiber = (k : Int) := by
    intro k f hf
    obtain ⟨r, hr, hA, hB⟩ := hends0 k f hf
    have hmem : r ∈ net.rows.filter p := List.mem_filter.2 ⟨hr, hself r (by rw [hA, hB])⟩
    obtain ⟨q', hr'⟩ := List.mem_iff_getElem?.1 hmem
    obtain ⟨a, ha, ha1, -⟩ := hp.endA q' r hr'
    exact ⟨_, a, ha, by rw [ha1.fiber, hA]⟩
  have hvalid : ValidMesh mesh.frame := by
    have h3' := h3
    obtain ⟨-, rfl⟩ := meshInit_ok h3
    rw [meshRows_valid_iff hvn, placement_ends hp]
    intro k r hk i hik hfl
    by_contra hAB
    have hsort := (C24_mesh_sorted h3').2
    rcases hfl with ⟨a, ha, hfirst⟩ | ⟨a, ha, hlast⟩
    · obtain ⟨-, -, -, ⟨j, b, hb, hbf, hbs⟩, -, hlt⟩ := ended_nodes hend hp ha
      have hl := abs_lt.1 (hlt k r hk hik hAB)
      exact hfirst j b (sorted_lt hsort hb ha hbf (by rw [hbs]; exact hl.1)) hb hbf
    · obtain ⟨-, -, ⟨j, b, hb, hbf, hbs⟩, -, -, hlt⟩ := ended_nodes hend hp ha
      have hl := abs_lt.1 (hlt k r hk hik hAB)
      exact hlast j b (sorted_lt hsort ha hb hbf.symm (by rw [hbs]; exact hl.2)) hb hbf
  have hof : OverFibers m mesh.rows := by
    intro a ha
    obtain ⟨i, ha⟩ := List.mem_iff_getElem?.1 ha
    obtain ⟨k, r, hk, ⟨-, ea, -⟩ | ⟨-, ea, -⟩⟩ := placement_cases hp ha <;>
      (obtain ⟨g1, g2, g3⟩ := hover r (List.mem_of_getElem? hk)
       rw [ea.fiber]; constructor <;> omega)
  have hm0 : 0 < m.fibers.length := List.length_pos_iff.2 hne
  have hf0 := List.getElem?_eq_getElem hm0
  obtain ⟨i0, a0, ha0, hk0⟩ := hends 0 _ hf0
  refine ⟨mesh, e1, h3, hvalid, hof, ?_, ?_, ?_⟩
  · intro h0
    rw [h0] at ha0; simp at ha0
  · obtain ⟨hsum, -, -⟩ := beams_of_ended hend h3 ha0
    obtain ⟨S, hS, hf⟩ := hgood.size
    have hl := (hf _ (List.getElem_mem hm0)).l
    rw [hk0] at hsum
    have e : halfLengthR N.fl m ((0 : ℕ) : Int) = N.fl (m.fibers[0].l / 2) := by
      simp only [halfLengthR, Int.toNat_natCast, hf0, Option.map_some, Option.getD_some]
    rw [e] at hsum
    have hl2 := fl_half_pos hN.sound.rounds hN.sound.lt hl
    by_contra hno
    push Not at hno
    have := Finset.sum_nonpos (s := beamsOf mesh.rows ((0 : ℕ) : Int)) (fun i hi => hno i (mem_beamsOf hi))
    rw [hsum] at this
    linarith
  · intro k f hf
    obtain ⟨i, a, ha, e⟩ := hends k f hf
    exact ⟨a, List.mem_of_getElem? ha, e⟩

theorem filtered_rows (hgood : GoodMat m) (hw : ∀ f ∈ m.fibers, f.w = 0) (hz : ∀ f ∈ m.fibers, N.fl f.z = f.z) (hN : SafeNet N u m) (g1 : netNewR N m periodic = .ok net) {p : NetRow K → Bool}
    {r : NetRow K} (hr : r ∈ net.rows.filter p) : (0 ≤ r.A ∧ r.A ≤ r.B ∧ r.B < (m.fibers.length : Int)) ∧
      r.zA = heightOf m r.A.toNat ∧ r.zB = heightOf m r.B.toNat :=
  ⟨(netNewR_over hgood hN g1).2.1 r (List.mem_filter.1 hr).1, row_heightsR hN.sound hN.ends hgood hw hz g1 (List.mem_filter.1 hr).1⟩

/-- Every node is at the height of its fiber. -/
theorem node_level (hgood : GoodMat m) (hw : ∀ f ∈ m.fibers, f.w = 0) (hzf : ∀ f ∈ m.fibers, N.fl f.z = f.z) (hN : SafeNet N u m) (g1 : netNewR N m periodic = .ok net) {p : NetRow K → Bool}
    (h3 : meshInit ⟨net.rows.filter p, net.attrs⟩ = .ok mesh) {i : ℕ} {a : MeshRow K} (ha : mesh.rows[i]? = some a) :
    a.z = heightOf m a.fiber.toNat ∧ a.fiber.toNat < m.fibers.length := by
  obtain ⟨place, hp⟩ := C26_constraints h3
  obtain ⟨k, r, hk, ⟨-, ea, -⟩ | ⟨-, ea, -⟩⟩ := placement_cases hp ha
  · obtain ⟨⟨g1, g2, g3⟩, g4, -⟩ := filtered_rows hgood hw hzf hN g1 (List.mem_of_getElem? hk)
    rw [ea.z, ea.fiber]; exact ⟨g4, by omega⟩
  · obtain ⟨⟨g1, g2, g3⟩, -, g4⟩ := filtered_rows hgood hw hzf hN g1 (List.mem_of_getElem? hk)
    rw [ea.z, ea.fiber]; exact ⟨g4, by omega⟩

/-- Heights and gaps of the nodes of a stacked mat from those of its fibers. -/
theorem rests_of (hgood : GoodMat m) (hw : ∀ f ∈ m.fibers, f.w = 0) (hzf : ∀ f ∈ m.fibers, N.fl f.z = f.z) (hN : SafeNet N u m) (g1 : netNewR N m periodic = .ok net) {p : NetRow K → Bool}
    (h3 : meshInit ⟨net.rows.filter p, net.attrs⟩ = .ok mesh) (hu0 : 0 ≤ u)
    (hfloor : ∀ f ∈ m.fibers, (1 - u) * (f.h / 2) - ε ≤ f.z)
    (hgap : ∀ r ∈ net.rows.filter p, r.A < r.B → (1 - 2 * u) * ((thick m r.A.toNat + thick m r.B.toNat) / 2) - ε ≤ r.zB - r.zA)
    {B : K} (hB : ∀ f ∈ m.fibers, f.h ≤ B) : RestsUpTo m mesh.rows (ε + 2 * u * B) := by
  obtain ⟨place, hp⟩ := C26_constraints h3
  obtain ⟨S, hS, hSf⟩ := hgood.size
  have hpos : ∀ f ∈ m.fibers, 0 < f.h := fun f hf => (GoodFiber.solid (hSf f hf)).h
  have hrows : ∀ r ∈ net.rows.filter p, _ := fun r hr => filtered_rows hgood hw hzf hN g1 hr
  have hthick : ∀ (i : ℕ) (a : MeshRow K), mesh.rows[i]? = some a → nodeThick m mesh.rows i = thick m a.fiber.toNat := by
    intro i a ha; simp [nodeThick, thick, ha]
  have hheight : ∀ (i : ℕ) (a : MeshRow K), mesh.rows[i]? = some a → nodeHeight mesh.rows i = a.z := by
    intro i a ha; simp [nodeHeight, ha]
  have hz : ∀ (i : ℕ) (a : MeshRow K), mesh.rows[i]? = some a → a.z = heightOf m a.fiber.toNat ∧ a.fiber.toNat < m.fibers.length :=
    fun i a ha => node_level hgood hw hzf hN g1 h3 ha
  have hth : ∀ k, k < m.fibers.length → 0 < thick m k ∧ u * thick m k ≤ u * B := by
    intro k hk
    have hf := List.getElem?_eq_getElem hk
    rw [thick_of hf]
    exact ⟨hpos _ (List.getElem_mem hk), mul_le_mul_of_nonneg_left (hB _ (List.getElem_mem hk)) hu0⟩
  constructor
  · intro i hi
    have ha : mesh.rows[i]? = some mesh.rows[i] := List.getElem?_eq_getElem hi
    obtain ⟨g1, g2⟩ := hz i _ ha
    obtain ⟨t1, t2⟩ := hth _ g2
    rw [hthick i _ ha, hheight i _ ha, g1]
    have hf : m.fibers[(mesh.rows[i]).fiber.toNat]? = some (m.fibers[(mesh.rows[i]).fiber.toNat]) :=
      List.getElem?_eq_getElem g2
    have h1 := hfloor _ (List.getElem_mem g2)
    rw [thick_of hf] at t1 t2 ⊢
    simp only [heightOf, hf, Option.map_some, Option.getD_some]
    have := mul_nonneg hu0 t1.le
    linarith
  · intro i j ⟨hij, a, ha, hj⟩ hne
    simp only [pairGap, add_zero]
    obtain ⟨k, r, hk, ⟨e0, ea, ec⟩ | ⟨e0, ea, ec⟩⟩ := placement_cases hp ha
    · have hrm := List.mem_of_getElem? hk
      obtain ⟨⟨g1, g2, g3⟩, g4, g5⟩ := hrows r hrm
      by_cases hAB : r.A = r.B
      · rw [if_pos hAB] at ec; omega
      · rw [if_neg hAB] at ec
        have hj' : j = place (2 * k + 1) := by omega
        obtain ⟨b, hb, eb, -⟩ := hp.endB k r hk
        rw [← hj'] at hb
        have := hgap r hrm (by omega)
        obtain ⟨-, t1⟩ := hth r.A.toNat (by omega)
        obtain ⟨-, t2⟩ := hth r.B.toNat (by omega)
        rw [hthick i _ ha, hthick j _ hb, hheight i _ ha, hheight j _ hb, ea.fiber, eb.fiber, ea.z, eb.z]
        linarith
    · have hrm := List.mem_of_getElem? hk
      obtain ⟨⟨g1, g2, g3⟩, g4, g5⟩ := hrows r hrm
      by_cases hAB : r.A = r.B
      · rw [if_pos hAB] at ec; omega
      · rw [if_neg hAB] at ec
        have hj' : j = place (2 * k) := by omega
        obtain ⟨b, hb, eb, -⟩ := hp.endA k r hk
        rw [← hj'] at hb
        have hsort := (C24_mesh_sorted h3).2
        obtain ⟨i1, x1⟩ := List.getElem?_eq_some_iff.1 ha
        obtain ⟨i2, x2⟩ := List.getElem?_eq_some_iff.1 hb
        have := List.pairwise_iff_getElem.1 hsort i j i1 i2 (by omega)
        rw [x1, x2, ea.fiber, eb.fiber] at this
        omega

/-- C91: in the mesh of a mat stacked with rounded arithmetic, the nodes overlap at most by the error of the linear programming
solver and by the rounding errors. -/
theorem C91_rests (hlp : NearLinprog ε lp) (h : GoodMat m) (hw : ∀ f ∈ m.fibers, f.w = 0) (hN : SafeNet N u m) (hn : netNewR N m periodic = .ok net)
    (hfmt : InFormat N.fl lp) (hu : u ≤ 1 / 1000) (he : 0 ≤ ε) (hthick : ∃ f ∈ m.fibers, 40 * ε ≤ f.h)
    (hst : stackNewR N lp m net threshold = .ok (m', st)) (hmesh : meshNew st = .ok mesh) {Z : K} (hT : IsTop m' mesh.rows Z) :
    30 * ε ≤ Z ∧ RestsUpTo m' mesh.rows (ε + 21 / 10 * u * Z) := by
  have hr := hN.sound.rounds
  obtain ⟨f0, hf0, hthin⟩ := hthick
  have hne : m.fibers ≠ [] := List.ne_nil_of_mem hf0
  obtain ⟨-, b1, b2⟩ := C91_stack hlp h hw hN hn hfmt hst
  obtain ⟨z, net', hz, hl, e0, hgood, hsame, g1, p, rfl, hself⟩ := stackR_cases h hne hN hn hst
  have hne' : m'.fibers ≠ [] := by
    rw [e0, ← List.length_pos_iff, setZ_length hl]; exact List.length_pos_iff.2 hne
  obtain ⟨mesh', e1, h3, -, -, -, -, hall⟩ := filtered_facts hgood hne' (SafeNet_same hN hsame) g1 hself
  have hzf : ∀ f ∈ m'.fibers, N.fl f.z = f.z := by rw [e0]; exact setZ_format hfmt hz hl
  rw [hmesh] at e1; cases e1
  have hw' := same_planar hsame hw
  have hu0 := hr.u_nonneg
  obtain ⟨S, hS, hSf⟩ := hgood.size
  have hpos : ∀ f ∈ m'.fibers, 0 < f.h := fun f hf => (GoodFiber.solid (hSf f hf)).h
  have low : ∀ f ∈ m'.fibers, (1 - u / 2) * f.h ≤ Z + ε := by
    intro f hf
    obtain ⟨k, hk⟩ := List.mem_iff_getElem?.1 hf
    obtain ⟨a, ha, hak⟩ := hall k f hk
    obtain ⟨i, hi⟩ := List.mem_iff_getElem?.1 ha
    have t := hT.2 i (List.getElem?_eq_some_iff.1 hi).1
    obtain ⟨q, -⟩ := node_level hgood hw' hzf (SafeNet_same hN hsame) g1 h3 hi
    have q1 : nodeHeight mesh.rows i = f.z := by simp [nodeHeight, hi, q, hak, heightOf, hk]
    have q2 : nodeThick m' mesh.rows i = f.h := by simp [nodeThick, hi, hak, hk]
    rw [q1, q2] at t
    have := b1 f hf
    linarith
  obtain ⟨k0, hk0⟩ := List.mem_iff_getElem?.1 hf0
  have hZ : 30 * ε ≤ Z := by
    have e2 := setZ_get hl hk0
    rw [← e0] at e2
    have := low _ (List.mem_of_getElem? e2)
    simp only at this
    have h1 : (1 - 1 / 2000) * f0.h ≤ (1 - u / 2) * f0.h :=
      mul_le_mul_of_nonneg_right (by linarith) (by linarith)
    linarith
  refine ⟨hZ, ?_⟩
  have := rests_of hgood hw' hzf (SafeNet_same hN hsame) g1 h3 hu0 b1 b2 (B := 21 / 20 * Z) (by
    intro f hf
    have h1 := low f hf
    have h2 : (1 - 1 / 2000) * f.h ≤ (1 - u / 2) * f.h :=
      mul_le_mul_of_nonneg_right (by linarith) (hpos f hf).le
    linarith)
  rw [show ε + 2 * u * (21 / 20 * Z) = ε + 21 / 10 * u * Z by ring] at this
  exact this

/-- C91: in every recorded state of a mat stacked and compressed with rounded arithmetic, the nodes overlap at most by the error of
the linear programming solver and by multiples of the tolerance on the errors of the linear solver and of the rounding. -/
theorem C91_compressed (hlp : NearLinprog ε lp) (h : GoodMat m) (hw : ∀ f ∈ m.fibers, f.w = 0) (hN : SafeNet N u m) (hn : netNewR N m periodic = .ok net)
    (hA : A.fl = N.fl) (hfmt : InFormat N.fl lp) (hu : u ≤ 1 / 1000) (he : 0 ≤ ε) (hthick : ∃ f ∈ m.fibers, 40 * ε ≤ f.h)
    (hst : stackNewR N lp m net threshold = .ok (m', st)) (hmesh : meshNew st = .ok mesh)
    {perm : Option (List ℕ)} {S : Sys K} {recs : List (Rec K)} {stop : Stop}
    (hs : solveR A m' mesh lmin lmax coupling o perm = .ok (S, recs, stop))
    (hp : PositiveLengths mesh.rows lmin lmax) (ho : OrderedLengths A.fl mesh.rows lmin lmax)
    (hnt : NormTest A.tooBig κ) (htol : 0 ≤ o.tol) (herr : 0 ≤ κ * o.errtol) (herr' : κ * o.errtol ≤ 1 / 100)
    {Z : K} (hT : IsTop m' mesh.rows Z) {k : ℕ} (hk : 400 * (k : K) * u ≤ 1) {a : Rec K} (ha : recs[k]? = some a) :
    ClearUpTo m' mesh.rows (ε + (7 * (κ * o.errtol) + (400 * k + 21) * u) * Z) a.Z a.x := by
  have hr : Rounds A.fl u := by rw [hA]; exact hN.sound.rounds
  obtain ⟨hZ, hrest⟩ := C91_rests hlp h hw hN hn hfmt hu he hthick hst hmesh hT
  obtain ⟨f0, hf0, -⟩ := hthick
  obtain ⟨-, -, -, -, -, hgood, -⟩ := stackR_cases h (List.ne_nil_of_mem hf0) hN hn hst
  have hu0 := hr.u_nonneg
  have uZ : u * Z ≤ 1 / 1000 * Z := mul_le_mul_of_nonneg_right hu (by linarith)
  have uZ0 : 0 ≤ u * Z := mul_nonneg hu0 (by linarith)
  have := C91_gaps hs hgood hp ho (by linarith) hrest hT (by linarith) hr hu hnt htol herr herr' hk ha
  refine fun i j hij => ?_
  obtain ⟨c1, c2, c3⟩ := this i j hij
  have e : ε + 21 / 10 * u * Z + (7 * (κ * o.errtol) + (400 * k + 18) * u) * Z ≤
      ε + (7 * (κ * o.errtol) + (400 * k + 21) * u) * Z := by linarith
  exact ⟨by linarith, fun hne => by have := c2 hne; linarith, by linarith⟩

theorem half_high (hr : Rounds fl u) {h : K} (h0 : 0 ≤ h) : fl (h / 2) ≤ (1 + u) * (h / 2) := by
  have := (abs_le.1 (hr.err (h / 2))).2
  rw [abs_of_nonneg (show 0 ≤ h / 2 by linarith)] at this
  linarith

theorem pair_high (hr : Rounds fl u) (hu : u ≤ 1) {h : K} (h0 : 0 ≤ h) : fl (fl h / 2) ≤ (1 + 4 * u) * (h / 2) := by
  have hu0 := hr.u_nonneg
  have h1 := abs_le.1 (hr.err h)
  rw [abs_of_nonneg h0] at h1
  have h2 : 0 ≤ fl h := by
    have : 0 ≤ (1 - u) * h := mul_nonneg (by linarith) h0
    linarith
  have h3 := half_high hr h2
  have h4 : (1 + u) * (fl h / 2) ≤ (1 + u) * ((1 + u) * (h / 2)) := mul_le_mul_of_nonneg_left (by linarith) (by linarith)
  nlinarith [mul_nonneg (mul_nonneg hu0 (sub_nonneg.2 hu)) h0, mul_nonneg hu0 h0]

/-- The rounded linear program has a solution: fibers at equal distances, in the order of their indices. -/
theorem stackLpR_feasible (h : GoodMat m) (ho : OverMat m net.rows) (hr : Rounds fl u) (hu : u ≤ 1) (hgrid : Grid fl m.fibers.length) :
    (∀ c ∈ (stackLpR fl m net).f, 0 ≤ c) ∧ ∃ z, Feasible (stackLpR fl m net) z ∧ ∀ c ∈ z, fl c = c := by
  obtain ⟨S, hS, hSf⟩ := h.size
  have hpos : ∀ f ∈ m.fibers, Solid f := fun f hf => GoodFiber.solid (hSf f hf)
  have hu0 := hr.u_nonneg
  have hnn : ∀ x : K, 0 ≤ x → 0 ≤ fl x := fun x hx => by have := hr.mono 0 x hx; rwa [hr.zero] at this
  constructor
  · intro c hc
    obtain ⟨f, hf, rfl⟩ := List.mem_map.1 hc
    have := hpos f hf
    have pi := npPi_pos' (K := K)
    refine hnn _ (mul_nonneg (hnn _ (by linarith)) (hnn _ (mul_nonneg (hnn _ (mul_nonneg ?_ this.b.le)) this.h.le)))
    exact (hSf f hf).l.le
  · have hth : ∀ k, 0 ≤ thick m k := by
      intro k
      unfold thick
      cases hk : m.fibers[k]? with
      | none => simp
      | some f => exact (hpos f (List.mem_of_getElem? hk)).h.le
    obtain ⟨H, hH, hg⟩ := hgrid (5 * ∑ k ∈ Finset.range m.fibers.length, thick m k)
    have hle : ∀ k, k < m.fibers.length → 5 * thick m k ≤ H := by
      intro k hk
      have := Finset.single_le_sum (f := fun k => thick m k) (fun i _ => hth i) (Finset.mem_range.2 hk)
      linarith
    have hH0 : 0 ≤ H := by
      refine le_trans ?_ hH
      have := Finset.sum_nonneg (s := Finset.range m.fibers.length) (f := fun k => thick m k) (fun i _ => hth i)
      linarith
    have hc : ∀ i, i < m.fibers.length → comp ((List.range m.fibers.length).map (fun i => ((i + 1 : ℕ) : K) * H)) i = ((i + 1 : ℕ) : K) * H := by
      intro i hi
      rw [comp_map _ _ (a := i) (by simp [hi])]
    have hf : (stackLpR fl m net).f.length = m.fibers.length := by simp [stackLpR]
    refine ⟨(List.range m.fibers.length).map (fun i => ((i + 1 : ℕ) : K) * H), ⟨by simp [hf], ?_, ?_⟩, ?_⟩
    · intro i hi
      rw [hf] at hi
      have e : (stackLpR fl m net).lower = m.fibers.map (fun f => fl (f.h / 2)) := by simp [stackLpR]
      rw [e, hc i hi, comp_map _ _ (List.getElem?_eq_getElem hi), ← thick_of (List.getElem?_eq_getElem hi)]
      have h1 := half_high hr (hth i)
      have h2 : u * thick m i ≤ 1 * thick m i := mul_le_mul_of_nonneg_right hu (hth i)
      have h3 := hle i hi
      have h4 : H ≤ ((i + 1 : ℕ) : K) * H := le_mul_of_one_le_left hH0 (by push_cast; linarith [(Nat.cast_nonneg i : (0 : K) ≤ i)])
      have h5 := hth i
      linarith
    · intro k hk
      have hr' := List.getElem?_eq_getElem (l := innerRows net.rows) hk
      set r := (innerRows net.rows)[k] with hrd
      have e : (stackLpR fl m net).H =
          (innerRows net.rows).map (fun r => -(fl (fl (thick m r.A.toNat + thick m r.B.toNat) / 2))) := by
        simp only [stackLpR, comp_h]
      have e2 := stack_row ho hr' (comp ((List.range m.fibers.length).map (fun i => ((i + 1 : ℕ) : K) * H)))
      change ∑ j ∈ Finset.range m.fibers.length, (stackLpR fl m net).C.get k j * comp _ j = _ at e2
      rw [hf, e, comp_map _ _ hr', e2]
      obtain ⟨q1, q2⟩ := mem_innerRows.1 (List.getElem_mem hk)
      obtain ⟨o1, o2, o3⟩ := ho _ q1
      change r.A < r.B at q2
      change 0 ≤ r.A at o1
      change r.A ≤ r.B at o2
      change r.B < _ at o3
      rw [hc _ (by omega), hc _ (by omega)]
      have h1 := pair_high hr hu (add_nonneg (hth r.A.toNat) (hth r.B.toNat))
      have t1 := hle r.A.toNat (by omega)
      have t2 := hle r.B.toNat (by omega)
      have s1 : u * (thick m r.A.toNat + thick m r.B.toNat) ≤ 1 * (thick m r.A.toNat + thick m r.B.toNat) :=
        mul_le_mul_of_nonneg_right hu (add_nonneg (hth _) (hth _))
      have hcast : ((r.A.toNat + 1 : ℕ) : K) + 1 ≤ ((r.B.toNat + 1 : ℕ) : K) := by
        have : r.A.toNat + 1 + 1 ≤ r.B.toNat + 1 := by omega
        exact_mod_cast this
      have h2 := mul_le_mul_of_nonneg_right hcast hH0
      linarith
    · intro c hc
      obtain ⟨i, hi, rfl⟩ := List.mem_map.1 hc
      exact hg _ (by have := List.mem_range.1 hi; omega)

/-- C91: the whole chain in rounded arithmetic raises no exception. -/
theorem C91_completes (hlp : NearLinprog ε lp) (hans : Answers N.fl lp) (hgrid : Grid N.fl m.fibers.length) (h : GoodMat m) (hw : ∀ f ∈ m.fibers, f.w = 0)
    (hN : SafeNet N u m) (hA : A.fl = N.fl) (hfmt : InFormat N.fl lp) (hu : u ≤ 1 / 1000) (he : 0 ≤ ε)
    (hthick : ∃ f ∈ m.fibers, 40 * ε ≤ f.h) (periodic : Bool)
    (threshold : Option K) :
    ∃ net m' st mesh Z, netNewR N m periodic = .ok net ∧ stackNewR N lp m net threshold = .ok (m', st) ∧ meshNew st = .ok mesh ∧
      IsTop m' mesh.rows Z ∧
      (∀ a b : K, 0 < a → a ≤ b → PositiveLengths mesh.rows (some a) (some b) ∧ OrderedLengths A.fl mesh.rows (some a) (some b)) ∧
      ∀ (lmin lmax : Option K) (coupling : K) (o : Opts K) (perm : Option (List ℕ)), PositiveLengths mesh.rows lmin lmax →
        OrderedLengths A.fl mesh.rows lmin lmax →
        ∃ S recs stop, solveR A m' mesh lmin lmax coupling o perm = .ok (S, recs, stop) ∧ |S.Z0 - Z| ≤ 2 * u * Z := by
  have hr : Rounds A.fl u := by rw [hA]; exact hN.sound.rounds
  obtain ⟨net, hn, -⟩ := C92_runs hN.sound hN.ends h periodic
  obtain ⟨hck, ho, hper⟩ := netNewR_over h hN hn
  have hne : m.fibers ≠ [] := List.ne_nil_of_mem hthick.choose_spec.1
  obtain ⟨hc, hf⟩ := stackLpR_feasible (fl := N.fl) h ho hN.sound.rounds (by linarith : u ≤ 1) hgrid
  obtain ⟨z, hz⟩ := hans _ hc hf
  have hl : z.length = m.fibers.length := by rw [(hlp _ _ hz).size]; simp [stackLpR]
  have hgood := setZ_good h hl
  have hsame := setZ_same hl
  obtain ⟨net', g1, hv', -⟩ := C92_runs hN.sound (finds_same hN.ends hsame) hgood periodic
  obtain ⟨p, st, est, hst, hself⟩ : ∃ (p : NetRow K → Bool) (st : Net K), st = ⟨net'.rows.filter p, net'.attrs⟩ ∧
      stackNewR N lp m net threshold = .ok (m.setZ z, st) ∧ ∀ r, r.A = r.B → p r = true := by
    have hall : (innerRows net.rows).all (fun r => decide (0 ≤ r.A) && decide (r.A < m.fibers.length)
        && decide (0 ≤ r.B) && decide (r.B < m.fibers.length)) = true := by
      rw [List.all_eq_true]
      intro r hr
      obtain ⟨h1, h2, h3⟩ := ho r (List.mem_of_mem_filter hr)
      simp only [Bool.and_eq_true, decide_eq_true_eq]
      omega
    have hvn : ∀ q : NetRow K → Bool, netCheck (Net.frame ⟨net'.rows.filter q, net'.attrs⟩) = .ok () := by
      intro q
      exact (C14_netCheck_iff _).2 (Or.inr (valid_sublist List.filter_sublist hv'))
    cases threshold with
    | none =>
      refine ⟨fun _ => true, _, rfl, ?_, fun _ _ => rfl⟩
      have hv := hvn (fun _ => true)
      rw [List.filter_eq_self.2 (fun _ _ => rfl)] at hv ⊢
      unfold stackNewR
      rw [(matCheck_frame_iff m).2 (Or.inr h), hck]
      simp only [bind, Except.bind, pure, Except.pure, throw, throwThe, MonadExceptOf.throw, hall, hz, hper, Option.getD_some, g1]
      rw [if_neg (by simp), if_neg (by simpa using hne), if_neg (by simpa using hl)]
      rw [show netCheck net'.frame = .ok () from hv]
    | some t =>
      refine ⟨fun r => decide (|N.fl (r.zB - r.zA)| ≤ t ∨ r.A = r.B), _, rfl, ?_, fun r hr => by simp [hr]⟩
      have hv := hvn (fun r => decide (|N.fl (r.zB - r.zA)| ≤ t ∨ r.A = r.B))
      unfold stackNewR
      rw [(matCheck_frame_iff m).2 (Or.inr h), hck]
      simp only [bind, Except.bind, pure, Except.pure, throw, throwThe, MonadExceptOf.throw, hall, hz, hper, Option.getD_some, g1]
      rw [if_neg (by simp), if_neg (by simpa using hne), if_neg (by simpa using hl)]
      unfold thresholdRowsR
      rw [hv]
  have hne' : (m.setZ z).fibers ≠ [] := by
    rw [← List.length_pos_iff, setZ_length hl]; exact List.length_pos_iff.2 hne
  obtain ⟨mesh, e1, h3, hvalid, hof, hner, hbeam, -⟩ := filtered_facts hgood hne' (SafeNet_same hN hsame) g1 hself
  rw [← est] at e1
  have hb : ∃ i, StartsBeam mesh.rows i := hbeam.imp fun _ h => h.1
  obtain ⟨cs, hC⟩ := C37_total hgood ((C28_meshCheck_iff _).2 (Or.inr hvalid)) (C26_reciprocal h3) hof hner
  have hT := (C37_geometric hC hgood (C26_reciprocal h3)).1
  obtain ⟨hZ, hrest⟩ := C91_rests hlp h hw hN hn hfmt hu he hthick hst e1 hT
  have uZ : u * cs.Z ≤ 1 / 1000 * cs.Z := mul_le_mul_of_nonneg_right hu (by linarith)
  have uZ0 : 0 ≤ u * cs.Z := mul_nonneg hr.u_nonneg (by linarith)
  refine ⟨net, m.setZ z, st, mesh, cs.Z, hn, hst, e1, hT, ?_, ?_⟩
  · intro a b ha hab
    refine ⟨⟨by simpa using ha, by simpa using by linarith, by simp, by simp⟩, ⟨?_, by simp, by simp⟩⟩
    rintro _ _ ⟨⟩ ⟨⟩
    exact hab
  · intro lmin lmax coupling o perm hp hol
    obtain ⟨Km, hK⟩ := C35_stiffness_total lmin lmax coupling hgood hvalid hof hb
    obtain ⟨S, recs, stop, e, -, e'⟩ := C91_runs (o := o) (perm := perm) hK hC hr hu hgood hp hol (by linarith) hT (by linarith) hrest.floor
    exact ⟨S, recs, stop, e, e'⟩

end

end Fibermat
