import Verif.Props.RoundedMat
import Verif.Props.Lapack
import Verif.Props.UnitsChain
import Verif.Spec.RoundedMain

/-! # C94: the whole program with rounded arithmetic -/

namespace Fibermat
open Spec
variable {σ K : Type} [Field K] [LinearOrder K] [IsStrictOrderedRing K]

/-- A mesh of `n` fibers whose net has at most one row per pair of fibers: one of the beams is not shorter than the `n`-th part of a fiber. -/
theorem long_beam {net : Net K} {half : Int → K} {mesh : Mesh K} {n : ℕ} {c : K} (hend : Ended net.rows half) (hinc : IncreasingAB net.rows)
    (hov : ∀ r ∈ net.rows, 0 ≤ r.A ∧ r.A ≤ r.B ∧ r.B < (n : Int)) (hmi : meshInit net = .ok mesh)
    (hall : ∀ k : ℕ, k < n → ∃ (i : ℕ) (a : MeshRow K), mesh.rows[i]? = some a ∧ a.fiber = (k : Int)) (hn : 0 < n) (hc : 0 < c)
    (hlow : ∀ k : ℕ, k < n → c ≤ 2 * half k) : ∃ i, StartsBeam mesh.rows i ∧ c ≤ n * beamLength mesh.rows i := by
  classical
  obtain ⟨place, hp⟩ := C26_constraints hmi
  have hcount : mesh.rows.length = 2 * net.rows.length := (C23_mesh_nodes hmi).1
  have hup := increasing_length hinc hov
  have hfib : ∀ (i : ℕ) (a : MeshRow K), mesh.rows[i]? = some a → 0 ≤ a.fiber ∧ a.fiber < (n : Int) := by
    intro i a ha
    obtain ⟨k, r, hk, ⟨-, ea, -⟩ | ⟨-, ea, -⟩⟩ := placement_cases hp ha <;>
      (obtain ⟨g1, g2, g3⟩ := hov r (List.mem_of_getElem? hk)
       rw [ea.fiber]; constructor <;> omega)
  have hcard : ∑ k ∈ Finset.range n, (nodesOf mesh.rows (k : Int)).card = mesh.rows.length := by
    rw [← Finset.card_range mesh.rows.length,
      Finset.card_eq_sum_card_fiberwise (f := fun i => (((mesh.rows[i]?).map (fun a : MeshRow K => a.fiber)).getD 0).toNat) (t := Finset.range n)]
    · refine Finset.sum_congr rfl fun k _ => ?_
      congr 1
      unfold nodesOf
      ext i
      simp only [Finset.mem_filter, Finset.mem_range]
      refine and_congr_right fun hi => ?_
      have hi' := List.getElem?_eq_getElem hi
      have := hfib i _ hi'
      simp only [hi', Option.map_some, Option.getD_some, Option.some.injEq, exists_eq_left']
      omega
    · intro i hi
      have hi' := List.getElem?_eq_getElem (Finset.mem_range.1 hi)
      have := hfib i _ hi'
      simp only [hi', Option.map_some, Option.getD_some, Finset.coe_range, Set.mem_Iio]
      omega
  obtain ⟨k, hk, hle⟩ : ∃ k ∈ Finset.range n, (nodesOf mesh.rows (k : Int)).card ≤ n + 1 := by
    by_contra hno
    push Not at hno
    have h1 : ∑ k ∈ Finset.range n, (n + 2) ≤ ∑ k ∈ Finset.range n, (nodesOf mesh.rows (k : Int)).card :=
      Finset.sum_le_sum fun k hk => hno k hk
    rw [hcard, Finset.sum_const, Finset.card_range, smul_eq_mul, hcount] at h1
    nlinarith
  have hkn := Finset.mem_range.1 hk
  obtain ⟨i, a, ha, hak⟩ := hall k hkn
  obtain ⟨hsum, hnum, -⟩ := beams_of_ended hend hmi ha
  rw [hak] at hsum hnum
  by_contra hno
  push Not at hno
  have hn' : (0 : K) < n := by exact_mod_cast hn
  have hlt : ∀ i ∈ beamsOf mesh.rows (k : Int), beamLength mesh.rows i ≤ c / n := by
    intro i hi
    rw [le_div_iff₀ hn', mul_comm]
    exact (hno i (mem_beamsOf hi)).le
  have hcb : (beamsOf mesh.rows (k : Int)).card ≤ n := by omega
  have h2 := hlow k hkn
  have hne : (beamsOf mesh.rows (k : Int)).Nonempty := by
    rw [Finset.nonempty_iff_ne_empty]
    intro h0
    rw [h0, Finset.sum_empty] at hsum
    linarith
  have hst : ∑ j ∈ beamsOf mesh.rows (k : Int), beamLength mesh.rows j < ∑ j ∈ beamsOf mesh.rows (k : Int), c / n := by
    apply Finset.sum_lt_sum_of_nonempty hne
    intro i hi
    rw [lt_div_iff₀ hn', mul_comm]
    exact hno i (mem_beamsOf hi)
  rw [hsum, Finset.sum_const, nsmul_eq_mul] at hst
  have h3 : ((beamsOf mesh.rows (k : Int)).card : K) * (c / n) ≤ n * (c / n) :=
    mul_le_mul_of_nonneg_right (by exact_mod_cast hcb) (by positivity)
  rw [mul_div_cancel₀ _ hn'.ne'] at h3
  linarith

section
variable {fl sq cos sin : K → K} {u ε δ : K} {g : Rng σ K} {e : σ} {a : MatArgs K} {s s' : σ} {m m' : Mat K} {lp : Linprog K}
  {N : NetArith K} {periodic : Bool} {net st : Net K} {threshold lmin lmax : Option K} {coupling : K} {o : Opts K} {mesh : Mesh K}
  {order : Sys K → List ℕ} {R : MainResultR K}

/-- C94: in the stacked mat, one of the beams is not shorter than the `n`-th part of the shortest fiber (up to rounding). -/
theorem C94_beam (h : GoodMat m) (hne : m.fibers ≠ []) (hN : SafeNet N u m) (hn : netNewR N m periodic = .ok net)
    (hst : stackNewR N lp m net threshold = .ok (m', st)) (hmesh : meshNew st = .ok mesh) {l : K} (hl0 : 0 < l)
    (hl : ∀ f ∈ m.fibers, l ≤ (1 - u) * f.l) :
    ∃ i, StartsBeam mesh.rows i ∧ l ≤ m.fibers.length * beamLength mesh.rows i := by
  obtain ⟨z, net', hz, hlz, e0, hgood, hsame, g1, p, rfl, hself⟩ := stackR_cases h hne hN hn hst
  have hN' := SafeNet_same hN hsame
  have hlen : m'.fibers.length = m.fibers.length := same_length hsame
  have hne' : m'.fibers ≠ [] := by
    rw [← List.length_pos_iff, hlen]; exact List.length_pos_iff.2 hne
  obtain ⟨mesh', e1, h3, -, -, -, -, hall⟩ := filtered_facts hgood hne' hN' g1 hself
  rw [hmesh] at e1; cases e1
  obtain ⟨hend0, hov, -, -, -⟩ := netNewR_ended hN'.sound hN'.ends hgood g1
  have hend : Ended (net'.rows.filter p) (halfLengthR N.fl m') := hend0.filter p (fun r _ => hself r)
  have hinc : IncreasingAB (net'.rows.filter p) := List.Pairwise.filter _ (C92_increasing hN'.sound hN'.ends hgood g1)
  rw [← hlen]
  refine long_beam (net := ⟨net'.rows.filter p, net'.attrs⟩) hend hinc (fun r hr => hov r (List.mem_filter.1 hr).1) h3 ?_
    (List.length_pos_iff.2 hne') hl0 ?_
  · intro k hk
    obtain ⟨b, hb, hbk⟩ := hall k _ (List.getElem?_eq_getElem hk)
    obtain ⟨i, hi⟩ := List.mem_iff_getElem?.1 hb
    exact ⟨i, b, hi, hbk⟩
  · intro k hk
    have e : halfLengthR N.fl m' (k : Int) = N.fl (m'.fibers[k].l / 2) := by
      simp only [halfLengthR, Int.toNat_natCast, List.getElem?_eq_getElem hk, Option.map_some, Option.getD_some]
    obtain ⟨f0, hf0, z, ef⟩ := same_mem hsame (List.getElem_mem hk)
    have h1 := hl f0 hf0
    have h2 : 0 < f0.l := by
      obtain ⟨S, -, hf⟩ := h.size
      exact (hf f0 hf0).l
    rw [e, ef]
    have := (abs_le.1 (hN.sound.rounds.err (f0.l / 2))).1
    rw [abs_of_nonneg (by linarith)] at this
    simp only
    linarith

/-- The stiffness matrix with the default options exists when it exists with others. -/
theorem stiffnessR_any {Km : Coo (Cell K)} (h : stiffnessR fl m mesh lmin lmax coupling = .ok Km) :
    ∃ Km', stiffnessR fl m mesh none none 1 = .ok Km' := by
  unfold stiffnessR at h ⊢
  cases h1 : matCheck m.frame with
  | error x => rw [h1] at h; cases h
  | ok _ =>
    cases h2 : meshCheck mesh.frame with
    | error x => rw [h1, h2] at h; cases h
    | ok _ =>
      cases h3 : beams m mesh.rows with
      | error x => rw [h1, h2, h3] at h; cases h
      | ok bs =>
        rw [h1, h2, h3] at h
        simp only [bind, Except.bind] at h ⊢
        unfold rescaleR at h ⊢
        simp only [bind, Except.bind] at h ⊢
        cases hls : bs.map (fun b => fl b.l) with
        | nil => rw [hls] at h; cases lmin <;> cases lmax <;> cases h
        | cons x xs => exact ⟨_, rfl⟩

/-- Without nodes there is no stiffness matrix. -/
theorem stiffnessR_nil (hm : matCheck m.frame = .ok ()) (hv : meshCheck mesh.frame = .ok ()) (hr : mesh.rows = []) :
    stiffnessR fl m mesh none none 1 = .error .valueError := by
  unfold stiffnessR
  have hbs : beams m mesh.rows = .ok [] := by
    rw [hr]; rfl
  rw [hm, hv, hbs]
  rfl

theorem safe_of (hA : ProgramArith fl sq u ε cos sin a) (hg : UnitInterval g) (h : matNewR fl sq g cos sin e a s = .ok (m, s')) :
    GoodMat m ∧ SafeNet (numpyArith fl sq) u m := by
  obtain ⟨-, -, h3, h4⟩ := C94_matNew_result hA.rounds hA.root hA.small hA.one hA.half hA.size hg hA.circle hA.eps h
  have := hA.small
  refine ⟨h3, numpy_sound hA.rounds hA.root (by norm_num at this; linarith), hA.ends m fun f hf => (h4 f hf).1, ?_⟩
  exact C93_heights hA.rounds.zero _

theorem lengths_of {l : K} (hA : ProgramArith fl sq u ε cos sin a) (hl : ProgramLengths fl u a lmin lmax l) (hm : GoodMat m)
    (hlen : (m.fibers.length : Int) = a.n)
    (hfl : ∀ f ∈ m.fibers, f.l = a.length) (hne : m.fibers ≠ []) (hN : SafeNet N u m) (hn : netNewR N m periodic = .ok net)
    (hst : stackNewR N lp m net threshold = .ok (m', st)) (hmesh : meshNew st = .ok mesh) :
    PositiveLengths mesh.rows lmin lmax ∧ OrderedLengths fl mesh.rows lmin lmax := by
  have hn0 : (0 : K) < m.fibers.length := by exact_mod_cast List.length_pos_iff.2 hne
  have hbeam : lmax = none → ∃ i, StartsBeam mesh.rows i ∧ l ≤ beamLength mesh.rows i := by
    intro hx
    have h1 := hl.free hx
    have h2 : (a.n : K) = m.fibers.length := by rw [← hlen]; simp
    rw [h2] at h1
    obtain ⟨i, hi, hle⟩ := C94_beam (l := l * m.fibers.length) hm hne hN hn hst hmesh (mul_pos hl.pos hn0) (by
      intro f hf
      rw [hfl f hf]
      exact h1)
    refine ⟨i, hi, ?_⟩
    rw [mul_comm] at hle
    exact le_of_mul_le_mul_left hle hn0
  have hlm := hl.given
  subst hlm
  refine ⟨⟨?_, ?_, by simp, ?_⟩, ⟨?_, ?_, by simp⟩⟩
  · rintro _ ⟨⟩; exact hl.pos
  · intro b hb; exact hl.pos.trans_le (hl.below b hb)
  · intro hx _
    obtain ⟨i, hi, hle⟩ := hbeam hx
    exact ⟨i, hi, hl.pos.trans_le hle⟩
  · rintro _ b ⟨⟩ hb; exact hl.below b hb
  · rintro _ ⟨⟩ hx
    exact ⟨hl.format, fun _ => hbeam hx⟩

theorem mainR_parts (h : mainProgramR fl sq g cos sin e lp order a periodic threshold lmin lmax coupling o s = .ok (R, s')) :
    ∃ m net Km cs, matNewR fl sq g cos sin e a s = .ok (m, s') ∧ netNewR (numpyArith fl sq) m periodic = .ok net ∧
      stackNewR (numpyArith fl sq) lp m net threshold = .ok (R.mat, R.stack) ∧ meshNew R.stack = .ok R.mesh ∧
      stiffnessR fl R.mat R.mesh none none 1 = .ok Km ∧ constraintR fl R.mat R.mesh = .ok cs ∧
      solveR (numpyFloats fl sq) R.mat R.mesh lmin lmax coupling o (some (order (assembleR fl Km cs))) = .ok (R.sys, R.recs, R.stop) := by
  unfold mainProgramR at h
  cases h1 : matNewR fl sq g cos sin e a s with
  | error x => rw [h1] at h; cases h
  | ok r =>
    rw [h1] at h
    simp only [bind, Except.bind] at h
    cases h2 : netNewR (numpyArith fl sq) r.1 periodic with
    | error x => rw [h2] at h; cases h
    | ok net =>
      rw [h2] at h
      simp only at h
      cases h3 : stackNewR (numpyArith fl sq) lp r.1 net threshold with
      | error x => rw [h3] at h; cases h
      | ok st =>
        rw [h3] at h
        simp only at h
        cases h4 : meshNew st.2 with
        | error x => rw [h4] at h; cases h
        | ok mesh =>
          rw [h4] at h
          simp only at h
          cases h5 : stiffnessR fl st.1 mesh none none 1 with
          | error x => rw [h5] at h; cases h
          | ok Km =>
            rw [h5] at h
            simp only at h
            cases h6 : constraintR fl st.1 mesh with
            | error x => rw [h6] at h; cases h
            | ok cs =>
              rw [h6] at h
              simp only at h
              cases h7 : solveR (numpyFloats fl sq) st.1 mesh lmin lmax coupling o (some (order (assembleR fl Km cs))) with
              | error x => rw [h7] at h; cases h
              | ok out =>
                rw [h7] at h
                simp only [pure, Except.pure, Except.ok.injEq, Prod.mk.injEq] at h
                obtain ⟨rfl, rfl⟩ := h
                exact ⟨r.1, net, Km, cs, rfl, h2, h3, h4, h5, h6, h7⟩

/-- C94: the program with rounding completes for the same arguments as with exact arithmetic, and otherwise raises the same exception. -/
theorem C94_runs (hA : ProgramArith fl sq u ε cos sin a) (hg : UnitInterval g) (hpsi : a.psi = 0) (hsin : sin 0 = 0)
    (hlp : NearLinprog δ lp) (hans : Answers fl lp) (hfmt : InFormat fl lp) (hgrid : Grid fl a.n.toNat) (hδ : 0 ≤ δ)
    (hthick : 40 * δ ≤ a.thickness) {l : K} (hl : ProgramLengths fl u a lmin lmax l) :
    ((∃ r, mainProgramR fl sq g cos sin e lp order a periodic threshold lmin lmax coupling o s = .ok r) ↔
      GoodSeed a.seed ∧ 0 < a.n ∧ 0 ≤ a.size ∧ PositiveArgs a) ∧
    (¬ (GoodSeed a.seed ∧ 0 < a.n ∧ 0 ≤ a.size ∧ PositiveArgs a) →
      mainProgramR fl sq g cos sin e lp order a periodic threshold lmin lmax coupling o s = .error .valueError) := by
  have hmat := C94_matNew_ok_iff (e := e) (s := s) hA.rounds hA.root hA.small hA.one hA.half hA.size hg hA.circle hA.eps
  have hyes : GoodSeed a.seed ∧ 0 < a.n ∧ 0 ≤ a.size ∧ PositiveArgs a →
      ∃ r, mainProgramR fl sq g cos sin e lp order a periodic threshold lmin lmax coupling o s = .ok r := by
    intro h0
    obtain ⟨⟨m, s1⟩, h1⟩ := hmat.1.2 ⟨h0.1, Or.inr h0.2⟩
    obtain ⟨k1, k2, k3, k4⟩ := C94_matNew_result hA.rounds hA.root hA.small hA.one hA.half hA.size hg hA.circle hA.eps h1
    obtain ⟨-, hN⟩ := safe_of hA hg h1
    have hpos : 0 < m.fibers.length := by omega
    have hne := List.length_pos_iff.1 hpos
    have hmem : m.fibers[0] ∈ m.fibers := List.getElem_mem hpos
    have hn : m.fibers.length = a.n.toNat := by omega
    obtain ⟨net, m', st, mesh, Z, h2, h3, h4, hT, -, h5⟩ := C91_completes (A := numpyFloats fl sq) hlp hans (by rw [hn]; exact hgrid) k3
      (fun f hf => (k4 f hf).2.2.2.2.2.2.2 hpsi hsin) hN rfl hfmt (by have := hA.small; norm_num at this; linarith) hδ
      ⟨_, hmem, by rw [(k4 _ hmem).2.2.2.2.1]; exact hthick⟩ periodic threshold
    obtain ⟨hp, ho⟩ := lengths_of hA hl k3 k1 (fun f hf => (k4 f hf).2.2.1) hne hN h2 h3 h4
    obtain ⟨S0, recs0, stop0, h6, -⟩ := h5 lmin lmax coupling o none hp ho
    obtain ⟨Km1, cs, e1, e2, -, -⟩ := solveR_eq h6
    obtain ⟨Km, e3⟩ := stiffnessR_any e1
    obtain ⟨S, recs, stop, h7, -⟩ := h5 lmin lmax coupling o (some (order (assembleR fl Km cs))) hp ho
    refine ⟨({ mat := m', stack := st, mesh := mesh, sys := S, recs := recs, stop := stop }, s1), ?_⟩
    have e2' : constraintR fl m' mesh = .ok cs := e2
    have e3' : stiffnessR fl m' mesh none none 1 = .ok Km := e3
    unfold mainProgramR
    simp only [bind, Except.bind, h1, h2, h3, h4, e3', e2', h7]
    rfl
  have hno : ¬ (GoodSeed a.seed ∧ 0 < a.n ∧ 0 ≤ a.size ∧ PositiveArgs a) →
      mainProgramR fl sq g cos sin e lp order a periodic threshold lmin lmax coupling o s = .error .valueError := by
    intro h0
    by_cases hz : GoodSeed a.seed ∧ a.n = 0
    · obtain ⟨⟨m, s1⟩, h1⟩ := hmat.1.2 ⟨hz.1, Or.inl hz.2⟩
      obtain ⟨k1, -, k3, -⟩ := C94_matNew_result hA.rounds hA.root hA.small hA.one hA.half hA.size hg hA.circle hA.eps h1
      obtain ⟨-, hN⟩ := safe_of hA hg h1
      have hnil : m.fibers = [] := by rw [← List.length_eq_zero_iff]; omega
      obtain ⟨net, h2, -⟩ := C92_runs hN.sound hN.ends k3 periodic
      obtain ⟨hend, ho, hv, -, -⟩ := netNewR_ended hN.sound hN.ends k3 h2
      have hck : netCheck net.frame = .ok () := (C14_netCheck_iff _).2 (Or.inr hv)
      have hrows : net.rows = [] := by
        rw [List.eq_nil_iff_forall_not_mem]
        intro r hr
        obtain ⟨o1, o2, o3⟩ := ho r hr
        rw [hnil] at o3
        simp at o3
        omega
      have hmc : matCheck m.frame = .ok () := (matCheck_frame_iff m).2 (Or.inr k3)
      have h3 : stackNewR (numpyArith fl sq) lp m net threshold = .ok (m, net) := by
        unfold stackNewR
        simp only [hmc, hck, hrows, hnil, bind, Except.bind]
        rfl
      obtain ⟨mesh, h4, -⟩ := meshNew_of_ended hck hend
      obtain ⟨f1, -, -, f4, -⟩ := meshNew_spec h4
      have h5 := stiffnessR_nil (fl := fl) hmc f4 (by rw [f1, hrows]; rfl)
      unfold mainProgramR
      simp only [bind, Except.bind, h1, h2, h3, h4, h5]
    · unfold mainProgramR
      rw [hmat.2 (by rintro ⟨hs, h | h⟩; exacts [hz ⟨hs, h⟩, h0 ⟨hs, h⟩])]
      rfl
  refine ⟨⟨?_, hyes⟩, hno⟩
  rintro ⟨r, hr⟩
  by_contra h0
  rw [hno h0] at hr
  cases hr

/-- C94: overlaps in the program with rounding. -/
theorem C94_overlap (hA : ProgramArith fl sq u ε cos sin a) (hg : UnitInterval g) (hpsi : a.psi = 0) (hsin : sin 0 = 0)
    (hlp : NearLinprog δ lp) (hfmt : InFormat fl lp) (hδ : 0 ≤ δ) (hthick : 40 * δ ≤ a.thickness) (hn : 0 < a.n)
    {l : K} (hl : ProgramLengths fl u a lmin lmax l) (htol : 0 ≤ o.tol) (herr : 0 ≤ o.errtol) (herr' : o.errtol ≤ 1 / 200)
    (h : mainProgramR fl sq g cos sin e lp order a periodic threshold lmin lmax coupling o s = .ok (R, s'))
    {Z : K} (hT : IsTop R.mat R.mesh.rows Z) {k : ℕ} (hk : 400 * (k : K) * u ≤ 1) {b : Rec K} (hb : R.recs[k]? = some b) :
    ClearUpTo R.mat R.mesh.rows (δ + (8 * o.errtol + (400 * k + 21) * u) * Z) b.Z b.x := by
  obtain ⟨m, net, Km, cs, h1, h2, h3, h4, h5, h6, h7⟩ := mainR_parts h
  obtain ⟨k1, k2, k3, k4⟩ := C94_matNew_result hA.rounds hA.root hA.small hA.one hA.half hA.size hg hA.circle hA.eps h1
  obtain ⟨-, hN⟩ := safe_of hA hg h1
  have hpos : 0 < m.fibers.length := by omega
  have hne := List.length_pos_iff.1 hpos
  have hmem : m.fibers[0] ∈ m.fibers := List.getElem_mem hpos
  have hu : u ≤ 1 / 1000 := by have := hA.small; norm_num at this; linarith
  have hu0 := hA.rounds.u_nonneg
  obtain ⟨hp, ho⟩ := lengths_of hA hl k3 k1 (fun f hf => (k4 f hf).2.2.1) hne hN h2 h3 h4
  have hnt : NormTest (numpyFloats fl sq).tooBig (101 / 100) := by
    refine C89_norm hA.rounds hu fun x hx => ?_
    obtain ⟨q0, q1, -⟩ := hA.root x hx
    refine ⟨q0, le_trans (mul_le_mul_of_nonneg_right ?_ hx) q1⟩
    nlinarith
  have hthick' : ∃ f ∈ m.fibers, 40 * δ ≤ f.h := ⟨_, hmem, by rw [(k4 _ hmem).2.2.2.2.1]; exact hthick⟩
  have hw := fun f hf => (k4 f hf).2.2.2.2.2.2.2 hpsi hsin
  have hZ := (C91_rests hlp k3 hw hN h2 hfmt hu hδ hthick' h3 h4 hT).1
  have := C91_compressed (A := numpyFloats fl sq) (κ := 101 / 100) hlp k3 hw hN h2 rfl hfmt hu hδ hthick' h3 h4 h7 hp ho hnt htol
    (by positivity) (by linarith) hT hk hb
  have hle : δ + (7 * (101 / 100 * o.errtol) + (400 * k + 21) * u) * Z ≤ δ + (8 * o.errtol + (400 * k + 21) * u) * Z := by
    have : (7 * (101 / 100 * o.errtol) + (400 * k + 21) * u) * Z ≤ (8 * o.errtol + (400 * k + 21) * u) * Z :=
      mul_le_mul_of_nonneg_right (by linarith) (by linarith)
    linarith
  intro i j hij
  obtain ⟨c1, c2, c3⟩ := this i j hij
  exact ⟨by linarith, fun hne => by have := c2 hne; linarith, by linarith⟩

/-- C94: the upper plate of the program goes down, and the compression ratio up. -/
theorem C94_plate (hA : ProgramArith fl sq u ε cos sin a) (hg : UnitInterval g) (hpsi : a.psi = 0) (hsin : sin 0 = 0)
    (hlp : NearLinprog δ lp) (hans : Answers fl lp) (hfmt : InFormat fl lp) (hgrid : Grid fl a.n.toNat) (hδ : 0 ≤ δ)
    (hthick : 40 * δ ≤ a.thickness) (hn : 0 < a.n) {l : K} (hl : ProgramLengths fl u a lmin lmax l) (htol : 0 ≤ o.tol)
    (h : mainProgramR fl sq g cos sin e lp order a periodic threshold lmin lmax coupling o s = .ok (R, s')) :
    (∃ Z, IsTop R.mat R.mesh.rows Z ∧ |R.sys.Z0 - Z| ≤ 2 * u * Z) ∧ ∀ (k : ℕ) (b c : Rec K), R.recs[k]? = some b → R.recs[k + 1]? = some c →
      c.Z ≤ b.Z ∧ (0 < c.Z → ∃ p q, b.rlambda = .fin p ∧ c.rlambda = .fin q ∧ p ≤ q) := by
  obtain ⟨m, net, Km, cs, h1, h2, h3, h4, h5, h6, h7⟩ := mainR_parts h
  obtain ⟨k1, k2, k3, k4⟩ := C94_matNew_result hA.rounds hA.root hA.small hA.one hA.half hA.size hg hA.circle hA.eps h1
  obtain ⟨-, hN⟩ := safe_of hA hg h1
  have hpos : 0 < m.fibers.length := by omega
  have hne := List.length_pos_iff.1 hpos
  have hmem : m.fibers[0] ∈ m.fibers := List.getElem_mem hpos
  have hu : u ≤ 1 / 1000 := by have := hA.small; norm_num at this; linarith
  have hlen : m.fibers.length = a.n.toNat := by omega
  have hthick' : ∃ f ∈ m.fibers, 40 * δ ≤ f.h := ⟨_, hmem, by rw [(k4 _ hmem).2.2.2.2.1]; exact hthick⟩
  have hw := fun f hf => (k4 f hf).2.2.2.2.2.2.2 hpsi hsin
  obtain ⟨net1, m1, st1, mesh1, Z, g2, g3, g4, hT, -, g5⟩ := C91_completes (A := numpyFloats fl sq) hlp hans (by rw [hlen]; exact hgrid) k3
    hw hN rfl hfmt hu hδ hthick' periodic threshold
  rw [h2] at g2; cases g2
  rw [h3] at g3; cases g3
  rw [h4] at g4; cases g4
  obtain ⟨hp, ho⟩ := lengths_of hA hl k3 k1 (fun f hf => (k4 f hf).2.2.1) hne hN h2 h3 h4
  obtain ⟨S, recs, stop, h8, hZ0⟩ := g5 lmin lmax coupling o _ hp ho
  rw [h7] at h8; cases h8
  refine ⟨⟨Z, hT, hZ0⟩, C91_plate (A := numpyFloats fl sq) h7 hA.rounds hA.one htol ?_⟩
  have hZ := (C91_rests hlp k3 hw hN h2 hfmt hu hδ hthick' h3 h4 hT).1
  have h9 := (abs_le.1 hZ0).1
  nlinarith

end

/-! ### Binary formats -/

section
variable [FloorRing K] {cos sin sq : K → K} {ε δ : K} {g : Rng σ K} {e : σ} {a : MatArgs K} {s : σ} {lp : Linprog K}
  {periodic : Bool} {threshold lmin lmax : Option K} {coupling : K} {o : Opts K} {order : Sys K → List ℕ} {p : ℕ}

/-- Halves of numbers of a binary format. -/
theorem binary_half (hp : 1 ≤ p) {x : K} (hx : binary p x = x) : HalfExact (binary p) x := by
  by_cases h0 : x = 0
  · subst h0
    constructor <;> simp [binary_zero]
  obtain ⟨n, f, hn, rfl⟩ : ∃ (n f : ℤ), |n| ≤ 2 ^ p ∧ x = n * 2 ^ f := by
    obtain ⟨e, h1, h2⟩ := exponent h0
    have he := binary_eq p h0 h1 h2
    rw [hx] at he
    refine ⟨_, _, ?_, he⟩
    have hs := zpow_split (K := K) p e
    have f0 := two_zpow_pos (K := K) (e + 1 - p)
    have h3 : |x / 2 ^ (e + 1 - p)| ≤ 2 ^ p := by
      rw [abs_div, abs_of_pos f0, div_le_iff₀ f0, ← hs]
      exact h2.le
    have h4 := rint_le_pow (abs_le.1 h3).2
    have h5 := neg_le_rint (abs_le.1 h3).1
    rw [abs_le]
    constructor
    · exact_mod_cast h5
    · exact_mod_cast h4
  have e1 : (n : K) * 2 ^ f / 2 = n * 2 ^ (f - 1) := by
    rw [zpow_sub₀ (by norm_num), zpow_one]; ring
  constructor
  · rw [e1]; exact binary_exact hp n (f - 1) hn
  · rw [e1]
    have := binary_exact (K := K) hp (-n) (f - 1) (by rwa [abs_neg])
    push_cast at this
    rw [neg_mul] at this
    exact this

/-- C94: binary arithmetic with at least 27 bits is good enough for the program when cosine and sine are accurate and when the size of
the mat is a number of the format. -/
theorem C94_binary (hp : 27 ≤ p) (hsq : RoundsSqrt sq (1 / 2 ^ p)) (hcs : NearUnit cos sin ε) (hε : ε ≤ 1 / 10 ^ 6)
    (hacc : (3 * ε + 8 / 2 ^ p) ^ 2 ≤ 1 / (2 * 2 ^ p)) (hsize : binary p a.size = a.size) :
    ProgramArith (binary p) sq (1 / 2 ^ p) ε cos sin a := by
  obtain ⟨n, rfl⟩ : ∃ n, p = n + 1 := ⟨p - 1, by omega⟩
  have hone : binary (n + 1) (1 : K) = 1 := by
    have := binary_exact (K := K) (p := n + 1) (by omega) 1 0 (by
      rw [abs_one]; exact_mod_cast Nat.one_le_two_pow)
    simpa using this
  have hbig : (2 : K) ^ 27 ≤ 2 ^ (n + 1) := pow_le_pow_right₀ (by norm_num) hp
  have hpos : (0 : K) < 2 ^ (n + 1) := by positivity
  have hu : (1 : K) / 2 ^ (n + 1) ≤ 1 / 10 ^ 8 := by
    apply one_div_le_one_div_of_le (by positivity)
    norm_num at hbig ⊢
    linarith
  have hε0 : 0 ≤ ε := (abs_nonneg _).trans (hcs 0)
  refine ⟨binary_rounds (by omega), hsq, hu, hone, binary_half (by omega) hone, binary_half (by omega) hsize, hcs, hε, fun m hm => ?_⟩
  refine C93_ends (n := n) (by omega) _ hm ?_
  have e8 : (8 : K) / 2 ^ (n + 1) = 8 * (1 / 2 ^ (n + 1)) := by ring
  have e4 : (4 : K) / 2 ^ (n + 1) = 4 * (1 / 2 ^ (n + 1)) := by ring
  have e2 : (1 : K) / (4 * 2 ^ n) = 1 / (2 * 2 ^ (n + 1)) := by rw [pow_succ]; ring
  rw [e2]
  refine le_trans ?_ hacc
  rw [e8, e4]
  have hv : (0 : K) ≤ 1 / 2 ^ (n + 1) := by positivity
  generalize (1 : K) / 2 ^ (n + 1) = v at hu hv ⊢
  have h1 : v * (3 * ε + 3 * v) ≤ v * (1 / 4) := mul_le_mul_of_nonneg_left (by norm_num at hε hu; linarith) hv
  refine pow_le_pow_left₀ (by positivity) ?_ 2
  linarith

/-- C94: equidistant numbers in a binary format. -/
theorem C94_grid (hp : 1 ≤ p) {n : ℕ} (hn : n ≤ 2 ^ p) : Grid (binary p : K → K) n := by
  intro B
  obtain ⟨e, he⟩ := pow_unbounded_of_one_lt B (show (1 : K) < 2 by norm_num)
  refine ⟨2 ^ e, he.le, fun k hk => ?_⟩
  have := (C89_binary (K := K) hp).2 k e (by rw [abs_of_nonneg (by positivity)]; exact_mod_cast hk.trans hn)
  simpa using this

/-- C94: the whole program in doubles.  With fibers in the plane, cosine and sine accurate to `10^(-9)`, a size that is a double, and
solvers as above, the program completes; the stacked mat has a top `Z`; in each recorded state, nodes overlap at most by the error of the
linear programming solver, by 8 times the tolerance and by the rounding errors; and the upper plate goes down. -/
theorem C94_doubles (hsq : RoundsSqrt sq (1 / 2 ^ 53)) (hcs : NearUnit cos sin (1 / 10 ^ 9)) (hsize : binary 53 a.size = a.size)
    (hg : UnitInterval g) (hpsi : a.psi = 0) (hsin : sin 0 = 0) (hlp : NearLinprog δ lp) (hans : Answers (binary 53) lp)
    (hfmt : InFormat (binary 53) lp) (hδ : 0 ≤ δ) (hthick : 40 * δ ≤ a.thickness) (hseed : GoodSeed a.seed)
    (hn : 0 < a.n) (hn' : a.n ≤ 2 ^ 53) (hs0 : 0 ≤ a.size) (hargs : PositiveArgs a) {l : K} (hl : ProgramLengths (binary 53) (1 / 2 ^ 53) a lmin lmax l)
    (htol : 0 ≤ o.tol) (herr : 0 ≤ o.errtol) (herr' : o.errtol ≤ 1 / 200) :
    ∃ R s' Z, mainProgramR (binary 53) sq g cos sin e lp order a periodic threshold lmin lmax coupling o s = .ok (R, s') ∧
      IsTop R.mat R.mesh.rows Z ∧
      (∀ (k : ℕ) (b : Rec K), R.recs[k]? = some b → k ≤ 2 ^ 44 →
        ClearUpTo R.mat R.mesh.rows (δ + (8 * o.errtol + (400 * k + 21) / 2 ^ 53) * Z) b.Z b.x) ∧
      ∀ (k : ℕ) (b c : Rec K), R.recs[k]? = some b → R.recs[k + 1]? = some c → c.Z ≤ b.Z := by
  have hA : ProgramArith (binary 53) sq (1 / 2 ^ 53) (1 / 10 ^ 9) cos sin a :=
    C94_binary (by norm_num) hsq hcs (by norm_num) (by norm_num) hsize
  have hgrid : Grid (binary 53 : K → K) a.n.toNat := C94_grid (by norm_num) (by omega)
  obtain ⟨⟨R, s'⟩, hR⟩ := (C94_runs (e := e) (s := s) (order := order) (periodic := periodic) (threshold := threshold) (coupling := coupling)
    (o := o) hA hg hpsi hsin hlp hans hfmt hgrid hδ hthick hl).1.2 ⟨hseed, hn, hs0, hargs⟩
  obtain ⟨⟨Z, hT, -⟩, hpl⟩ := C94_plate hA hg hpsi hsin hlp hans hfmt hgrid hδ hthick hn hl htol hR
  refine ⟨R, s', Z, hR, hT, fun k b hb hk => ?_, fun k b c hb hc => (hpl k b c hb hc).1⟩
  have hk' : 400 * (k : K) * (1 / 2 ^ 53) ≤ 1 := by
    have : (k : K) ≤ 2 ^ 44 := by exact_mod_cast hk
    rw [mul_one_div, div_le_one (by positivity)]
    linarith
  have := C94_overlap hA hg hpsi hsin hlp hfmt hδ hthick hn hl htol herr herr' hR hT hk' hb
  rwa [mul_one_div] at this

end
end Fibermat
