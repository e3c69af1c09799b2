import Verif.Props.NetMesh
import Verif.Spec.RoundedNet
import Verif.Props.Rounded

/-! Lemmas on `Net` with rounded arithmetic. -/

namespace Fibermat
open Spec
set_option linter.unusedSectionVars false
variable {K : Type} [Field K] [LinearOrder K] [IsStrictOrderedRing K]

/-- `mat_` of `Net.init`. -/
def extFibersR (fl : K → K) (periodic : Bool) (size : K) (fs : List (Fiber K)) : List (Nat × Fiber K) :=
  if periodic then periodicFibersR fl size fs else plainFibers fs

/-- A coordinate of a copy: not moved, or moved by one box in either direction. -/
def MovedTo (fl : K → K) (size x y : K) : Prop := y = x ∨ y = fl (x + size) ∨ y = fl (x - size)

/-- A copy of a fiber. -/
structure CopyOf (fl : K → K) (size : K) (f g : Fiber K) : Prop where
  rest : g = { f with x := g.x, y := g.y }
  x : MovedTo fl size f.x g.x
  y : MovedTo fl size f.y g.y

theorem CopyOf.l {fl : K → K} {size : K} {f g : Fiber K} (h : CopyOf fl size f g) : g.l = f.l := by rw [h.rest]

theorem CopyOf.dir {fl : K → K} {size : K} {f g : Fiber K} (h : CopyOf fl size f g) : SameDir g f := by
  rw [h.rest]; exact ⟨rfl, rfl, rfl⟩

theorem ext_imageR {fl : K → K} {periodic : Bool} {size : K} {fs : List (Fiber K)} {p : Nat × Fiber K}
    (h : p ∈ extFibersR fl periodic size fs) :
    ∃ f, fs[p.1]? = some f ∧ CopyOf fl size f p.2 ∧ (periodic = false → p.2 = f) := by
  unfold extFibersR at h
  cases periodic with
  | false => exact ⟨p.2, mem_plain.1 h, ⟨rfl, Or.inl rfl, Or.inl rfl⟩, fun _ => rfl⟩
  | true =>
    have hb : ∀ q : Nat × Fiber K, q ∈ fs.zipIdx.map (fun p => (p.2, p.1)) ↔ fs[q.1]? = some q.2 := fun q => mem_plain
    simp only [if_true] at h
    unfold periodicFibersR at h
    simp only [List.mem_append, List.mem_map, List.mem_filter, hb] at h
    rcases h with ((h | ⟨q, ⟨h1, -⟩, rfl⟩) | ⟨q, ⟨h1, -⟩, rfl⟩) | ⟨q, ⟨h1, -⟩, rfl⟩
    · exact ⟨p.2, h, ⟨rfl, Or.inl rfl, Or.inl rfl⟩, fun _ => rfl⟩
    · exact ⟨q.2, h1, ⟨rfl, Or.inr (Or.inl rfl), Or.inl rfl⟩, by simp⟩
    · exact ⟨q.2, h1, ⟨rfl, Or.inl rfl, Or.inr (Or.inl rfl)⟩, by simp⟩
    · exact ⟨q.2, h1, ⟨rfl, Or.inr (Or.inr rfl), Or.inr (Or.inr rfl)⟩, by simp⟩

theorem ext_baseR {fl : K → K} {periodic : Bool} {size : K} {fs : List (Fiber K)} {a : Nat} {f : Fiber K}
    (h : fs[a]? = some f) : (a, f) ∈ extFibersR fl periodic size fs := by
  have hb : (a, f) ∈ plainFibers fs := mem_plain.2 h
  unfold extFibersR
  cases periodic with
  | false => exact hb
  | true =>
    simp only [if_true]
    unfold periodicFibersR
    simp only [List.mem_append]
    exact Or.inl (Or.inl (Or.inl hb))

/-- The sorted candidates of `Net.init` without user pairs. -/
def netCandsR (N : NetArith K) (periodic : Bool) (size : K) (fs : List (Fiber K)) : List (Cand K) :=
  sortDedup ((triu (extFibersR N.fl periodic size fs)).filterMap (candidateR N))

theorem netInitR_eq {N : NetArith K} {m : Mat K} {S : K} (h : GoodMat m) (hS : m.attrs.size = some S) (periodic : Bool) :
    netInitR N m periodic none = .ok
      { rows := (netCandsR N periodic S m.fibers).map (netRowR N.fl m.fibers)
        attrs := { m.attrs with periodic := some periodic } } := by
  have hc := matCheck_frame_iff (m := m) |>.2 (Or.inr h)
  unfold netInitR
  rw [hc]
  cases periodic <;> simp [hS, Bind.bind, Except.bind, pure, Except.pure, netCandsR, extFibersR]

/-- Where a candidate comes from. -/
structure FromPair (N : NetArith K) (periodic : Bool) (size : K) (fs : List (Fiber K)) (c : Cand K) (f g : Fiber K) : Prop where
  getA : fs[c.A]? = some f
  getB : fs[c.B]? = some g
  le : c.A ≤ c.B
  ends : c.A = c.B → c.sA = N.fl (f.l / 2) ∧ c.sB = -N.fl (f.l / 2)
  inner : c.A < c.B → |c.sA| < N.fl (f.l / 2) ∧ |c.sB| < N.fl (g.l / 2) ∧
    ∃ f' g', CopyOf N.fl size f f' ∧ CopyOf N.fl size g g' ∧ (periodic = false → f' = f ∧ g' = g) ∧
      (N.sol f' g' = some (c.sA, -c.sB) ∨ N.sol g' f' = some (c.sB, -c.sA))

theorem fl_half_pos {fl : K → K} {u l : K} (hr : Rounds fl u) (hu : u < 1) (hl : 0 < l) : 0 < fl (l / 2) := by
  have h := (abs_le.1 (hr.err (l / 2))).1
  have h2 : 0 < l / 2 := by linarith
  rw [abs_of_pos h2] at h
  have := mul_pos (sub_pos.2 hu) h2
  linarith

theorem netCandsR_mem {N : NetArith K} {u : K} (hN : SoundArith N u) {m : Mat K} (hE : FindsEnds N m)
    (hl : ∀ f ∈ m.fibers, 0 < f.l) {periodic : Bool} {S : K} {c : Cand K} (h : c ∈ netCandsR N periodic S m.fibers) :
    ∃ f g, FromPair N periodic S m.fibers c f g := by
  have h1 := sortDedup_mem h
  rw [List.mem_filterMap] at h1
  obtain ⟨⟨⟨a, f'⟩, ⟨b, g'⟩⟩, hp, hc⟩ := h1
  obtain ⟨ha, hb⟩ := mem_triu hp
  obtain ⟨f, hf, cf, nf⟩ := ext_imageR ha
  obtain ⟨g, hg, cg, ng⟩ := ext_imageR hb
  simp only at hf hg cf cg nf ng
  have hfl := fl_half_pos hN.rounds hN.lt (hl f (List.mem_of_getElem? hf))
  have hgl := fl_half_pos hN.rounds hN.lt (hl g (List.mem_of_getElem? hg))
  unfold candidateR at hc
  simp only [cf.l, cg.l] at hc
  split_ifs at hc with c1 c2 c3
  · rw [Option.some.injEq] at hc
    subst hc
    refine ⟨f, g, hf, hg, c3, ?_, ?_⟩
    · intro hab
      simp only at hab
      subst hab
      rw [hf] at hg; cases hg
      rw [hE f (List.mem_of_getElem? hf) f' g' cf.dir cg.dir]
      exact ⟨rfl, rfl⟩
    · intro hab
      simp only at hab
      rcases c2 with ⟨d1, d2⟩ | d
      · refine ⟨d1, d2, f', g', cf, cg, fun hp => ⟨nf hp, ng hp⟩, Or.inl ?_⟩
        cases hs : N.sol f' g' with
        | none =>
          rw [hs] at d1
          simp only [Option.getD_none, abs_of_pos hfl] at d1
          exact absurd d1 (lt_irrefl _)
        | some R => simp
      · omega
  · rw [Option.some.injEq] at hc
    subst hc
    refine ⟨g, f, hg, hf, by simp only; omega, fun hab => absurd hab (by simp only; omega), ?_⟩
    intro hab
    simp only at hab
    rcases c2 with ⟨d1, d2⟩ | d
    · refine ⟨d2, d1, g', f', cg, cf, fun hp => ⟨ng hp, nf hp⟩, Or.inr ?_⟩
      cases hs : N.sol f' g' with
      | none =>
        rw [hs] at d1
        simp only [Option.getD_none, abs_of_pos hfl] at d1
        exact absurd d1 (lt_irrefl _)
      | some R => simp
    · omega

theorem candidateR_self {N : NetArith K} {u : K} (hN : SoundArith N u) {m : Mat K} (hE : FindsEnds N m) {a : ℕ} {f : Fiber K}
    (hl : 0 < f.l) (hf : m.fibers[a]? = some f) :
    candidateR N ((a, f), (a, f)) = some ⟨a, a, N.fl (f.l / 2), -N.fl (f.l / 2)⟩ := by
  have hs := hE f (List.mem_of_getElem? hf) f f ⟨rfl, rfl, rfl⟩ ⟨rfl, rfl, rfl⟩
  have h2 : 0 < N.fl (f.l + f.l) := by
    have := fl_half_pos hN.rounds hN.lt (show 0 < 2 * (f.l + f.l) by linarith)
    rwa [show 2 * (f.l + f.l) / 2 = f.l + f.l by ring] at this
  have h3 := hN.closer _ (fl_half_pos hN.rounds hN.lt h2)
  simp [candidateR, hs, hN.rounds.zero, h3]

theorem netCandsR_ends {N : NetArith K} {u : K} (hN : SoundArith N u) {m : Mat K} (hE : FindsEnds N m)
    (hl : ∀ f ∈ m.fibers, 0 < f.l) {periodic : Bool} {S : K} {a : Nat} {f : Fiber K} (h : m.fibers[a]? = some f) :
    ⟨a, a, N.fl (f.l / 2), -N.fl (f.l / 2)⟩ ∈ netCandsR N periodic S m.fibers := by
  have hpos := hl f (List.mem_of_getElem? h)
  have hext : (a, f) ∈ extFibersR N.fl periodic S m.fibers := ext_baseR h
  have hcm : (⟨a, a, N.fl (f.l / 2), -N.fl (f.l / 2)⟩ : Cand K) ∈
      (triu (extFibersR N.fl periodic S m.fibers)).filterMap (candidateR N) := by
    rw [List.mem_filterMap]
    refine ⟨((a, f), (a, f)), ?_, candidateR_self hN hE hpos h⟩
    rcases triu_complete hext hext with h | h <;> exact h
  obtain ⟨d, hdm, e1, e2⟩ := sortDedup_key hcm
  have hdm' : d ∈ netCandsR N periodic S m.fibers := hdm
  obtain ⟨f', g', hp⟩ := netCandsR_mem hN hE hl hdm'
  simp only at e1 e2
  obtain ⟨s1, s2⟩ := hp.ends (by omega)
  have hf' := hp.getA
  rw [e1, h] at hf'
  cases hf'
  have : d = ⟨a, a, N.fl (f.l / 2), -N.fl (f.l / 2)⟩ := by
    cases d; simp only at e1 e2 s1 s2; subst e1 e2 s1 s2; rfl
  rwa [← this]

theorem netRowR_of {fl : K → K} {fs : List (Fiber K)} {c : Cand K} {f g : Fiber K} (hf : fs[c.A]? = some f) (hg : fs[c.B]? = some g) :
    netRowR fl fs c = { A := c.A, B := c.B, sA := c.sA, sB := c.sB
                        xA := fl (f.x + fl (c.sA * f.u)), yA := fl (f.y + fl (c.sA * f.v)), zA := fl (f.z + fl (c.sA * f.w))
                        xB := fl (g.x + fl (c.sB * g.u)), yB := fl (g.y + fl (c.sB * g.v)), zB := fl (g.z + fl (c.sB * g.w)) } := by
  unfold netRowR
  rw [List.getD_eq_getElem?_getD, List.getD_eq_getElem?_getD, hf, hg]
  rfl

/-- A network made of sorted candidates with labels in range is valid. -/
theorem cands_validR {m : Mat K} (h : GoodMat m) (periodic : Bool) {cs : List (Cand K)} (hst : cs.Pairwise candLt)
    (hlab : ∀ c ∈ cs, c.A ≤ c.B ∧ c.B < m.fibers.length) (fl : K → K) :
    ValidNet (Net.frame ⟨cs.map (netRowR fl m.fibers), { m.attrs with periodic := some periodic }⟩) := by
  obtain ⟨S, hS, -⟩ := h.size
  have hrow : ∀ r ∈ cs.map (netRowR fl m.fibers),
      ∃ a b : Nat, r.A = (a : Int) ∧ r.B = (b : Int) ∧ a ≤ b ∧ b < m.fibers.length := by
    intro r hr
    obtain ⟨c, hc, rfl⟩ := List.mem_map.1 hr
    obtain ⟨hle, hlt⟩ := hlab c hc
    exact ⟨c.A, c.B, rfl, rfl, hle, hlt⟩
  have e : ((Net.frame ⟨cs.map (netRowR fl m.fibers), { m.attrs with periodic := some periodic }⟩).rows).map Prod.snd =
      cs.map (netRowR fl m.fibers) := by
    simp only [Net.frame, List.map_map]
    exact zipIdx_map_fst' _ 0
  have hmem : ∀ p ∈ (Net.frame ⟨cs.map (netRowR fl m.fibers), { m.attrs with periodic := some periodic }⟩).rows,
      p.2 ∈ cs.map (netRowR fl m.fibers) := by
    intro p hp
    rw [← e]
    exact List.mem_map_of_mem hp
  refine ⟨by simp [HasColumns, Net.frame, netColumns, netCols], ⟨⟨_, h.n⟩, ⟨S, hS⟩, ⟨periodic, rfl⟩⟩, labels_netFrame _, rfl,
    ?_, ?_, ?_⟩
  · intro p hp n hn
    obtain ⟨a, b, hA, hB, hab, hb⟩ := hrow _ (hmem p hp)
    have : m.attrs.n = some n := hn
    rw [h.n, Option.some.injEq] at this
    omega
  · have hst' : (cs.map (netRowR fl m.fibers)).Pairwise
        (fun p q => ¬ (p.A = q.A ∧ p.B = q.B ∧ p.sA = q.sA ∧ p.sB = q.sB)) := by
      rw [List.pairwise_map]
      refine hst.imp ?_
      intro c d hcd hcon
      simp only [netRowR, Nat.cast_inj] at hcon
      unfold candLt at hcd
      omega
    unfold NoRepeat
    rw [← e, List.pairwise_map] at hst'
    exact hst'
  · intro p hp
    obtain ⟨a, b, hA, hB, hab, hb⟩ := hrow _ (hmem p hp)
    omega

theorem netNewR_eq {N : NetArith K} {u : K} (hN : SoundArith N u) {m : Mat K} (hE : FindsEnds N m) {S : K} (h : GoodMat m)
    (hS : m.attrs.size = some S) (periodic : Bool) :
    netNewR N m periodic = .ok
      { rows := (netCandsR N periodic S m.fibers).map (netRowR N.fl m.fibers)
        attrs := { m.attrs with periodic := some periodic } } ∧
    ValidNet (Net.frame ⟨(netCandsR N periodic S m.fibers).map (netRowR N.fl m.fibers), { m.attrs with periodic := some periodic }⟩) := by
  have hv := cands_validR h periodic (cs := netCandsR N periodic S m.fibers) (sortDedup_strict _) (by
    intro c hc
    obtain ⟨f, g, hp⟩ := netCandsR_mem hN hE (goodMat_pos h) hc
    exact ⟨hp.le, (List.getElem?_eq_some_iff.1 hp.getB).1⟩) N.fl
  have hc := (C14_netCheck_iff _).2 (Or.inr hv)
  refine ⟨?_, hv⟩
  unfold netNewR
  rw [netInitR_eq h hS]
  simp only [Bind.bind, Except.bind, hc]
  rfl

theorem netNewR_ok {N : NetArith K} {u : K} (hN : SoundArith N u) {m : Mat K} (hE : FindsEnds N m) (h : GoodMat m) {periodic : Bool}
    {net : Net K} (hn : netNewR N m periodic = .ok net) :
    ∃ S, m.attrs.size = some S ∧ (∀ f ∈ m.fibers, GoodFiber S f) ∧ ValidNet net.frame ∧
      net = { rows := (netCandsR N periodic S m.fibers).map (netRowR N.fl m.fibers)
              attrs := { m.attrs with periodic := some periodic } } := by
  obtain ⟨S, hS, hf⟩ := h.size
  obtain ⟨e, hv⟩ := netNewR_eq hN hE h hS periodic
  rw [e] at hn
  cases hn
  exact ⟨S, hS, hf, hv, rfl⟩

end Fibermat
