import Verif.Model.Export
import Verif.Spec.Export
import Verif.Props.Plot
import Verif.Props.SolverEnergy
import Verif.Props.SolverMore
import Verif.Props.Render

/-! # C88: the fields handed to the picture of the deformed mat -/

set_option linter.unusedSectionVars false
set_option linter.unusedSimpArgs false

namespace Fibermat
open Spec
variable {K : Type} [Field K] [LinearOrder K] [IsStrictOrderedRing K]
variable {mat : Mat K} {mesh : Mesh K} {lmin lmax : Option K} {coupling : K} {o : Opts K} {perm : Option (List ℕ)}
  {S : Sys K} {recs : List (Rec K)} {stop : Stop}

theorem sum_triples (n : ℕ) (g : ℕ → K) :
    ∑ j ∈ Finset.range (3 * n), g j = ∑ k ∈ Finset.range n, (g (3 * k) + g (3 * k + 1) + g (3 * k + 2)) := by
  induction n with
  | zero => simp
  | succ n ih =>
    rw [show 3 * (n + 1) = 3 * n + 1 + 1 + 1 by ring, Finset.sum_range_succ, Finset.sum_range_succ, Finset.sum_range_succ, ih,
      Finset.sum_range_succ]
    ring

theorem nodeLoad_eq {Km : Coo (Cell K)} {cs : ConstraintSys K} {N : ℕ} (hN : Km.nrows = N) (f : ℕ → K) {c : ℕ} (hcn : c < N) :
    (assemble Km cs).nodeLoad f c = .fin (∑ j ∈ Finset.range cs.C.nrows, f j * cs.C.get j c) := by
  unfold Sys.nodeLoad
  rw [show (assemble Km cs).nC = cs.C.nrows from rfl]
  apply cellSum_range
  intro k _
  have h1 : ¬ (assemble Km cs).nK + k < Km.nrows := by simp [assemble]
  have h2 : c < Km.nrows := by omega
  simp only [assemble] at h1 ⊢
  rw [if_neg h1, if_pos h2, Nat.add_sub_cancel_left]
  rfl

/-- The vertical part of `f @ C` is the load on the nodes. -/
theorem netLoad_eq {rows : List (MeshRow K)} {cs : ConstraintSys K} {hs : List K} {l : List (Contact K)}
    (hc : Contacts mat rows cs hs l) (f : ℕ → K) {i : ℕ} (hi : i < rows.length) (hn : cs.C.nrows = 3 * l.length) :
    ∑ j ∈ Finset.range cs.C.nrows, f j * cs.C.get j (2 * i) = netLoad (l.map (fun x => (x.i, x.j))) f i := by
  unfold netLoad
  rw [hn, sum_triples, List.length_map]
  apply Finset.sum_congr rfl
  intro k hk
  have hkl : k < l.length := Finset.mem_range.1 hk
  have hk' := List.getElem?_eq_getElem hkl
  have e0 := hc.entry hk' (d := 0) (by omega) (s := 2 * i) (by omega)
  have e1 := hc.entry hk' (d := 1) (by omega) (s := 2 * i) (by omega)
  have e2 := hc.entry hk' (d := 2) (by omega) (s := 2 * i) (by omega)
  rw [add_zero] at e0
  rw [e0, e1, e2]
  have h1 : (l.map (fun x => (x.i, x.j))).getD k (0, 0) = (l[k].i, l[k].j) := by
    simp [List.getD_eq_getElem?_getD, hk']
  rw [h1]
  have h2 : ∀ a : ℕ, (2 * a = 2 * i ↔ a = i) := fun a => by omega
  simp only [h2]
  norm_num
  split_ifs <;> ring

/-- What the forces `f` of the connections `pairs` mean in a state with displacements `x` and plate height `Z`: a force that is
not zero belongs to a gap of at most `tol`. -/
def InContact (mat : Mat K) (rows : List (MeshRow K)) (tol Z : K) (x f : ℕ → K) (pairs : List (ℕ × ℕ)) : Prop :=
  ∀ k i j, pairs[k]? = some (i, j) →
    (f (3 * k) ≠ 0 → floorGap mat rows x i ≤ tol) ∧
    (f (3 * k + 1) ≠ 0 → i ≠ j ∧ pairGap mat rows x i j ≤ tol) ∧
    (f (3 * k + 2) ≠ 0 → roofGap mat rows Z x j ≤ tol)

/-- C88: connections are listed once each, by three forces; at every pseudo-time the fields handed to `vtk_mesh` are the interpolated displacements and rotations, the load on each
node that its contacts exert, counted positive downwards, and no moment at all. With an exact linear solver a force that is not
zero belongs to a closed gap. -/
theorem C88_fields (h : solve mat mesh lmin lmax coupling o perm = .ok (S, recs, stop)) (hm : GoodMat mat)
    (hp : PositiveLengths mesh.rows lmin lmax) :
    ∃ pairs : List (ℕ × ℕ), (∀ p, p ∈ pairs ↔ IsPair mesh.rows p.1 p.2) ∧ pairs.Nodup ∧ S.nC = 3 * pairs.length ∧
      (∀ (size : Option ℕ) (t : K) (i : ℕ), i < mesh.rows.length →
        (exportFields S recs size t).displacement i = interpolate .linear (recs.map (fun a => a.x (2 * i))) size t ∧
        (exportFields S recs size t).rotation i = interpolate .linear (recs.map (fun a => a.x (2 * i + 1))) size t ∧
        (exportFields S recs size t).force i = .fin (netLoad pairs (fun j =>
          interpolate .linear (recs.map (fun a => a.x (2 * mesh.rows.length + j))) size t) i) ∧
        (exportFields S recs size t).moment i = .fin 0) ∧
      (ExactLin o.lin → PermOf S.n perm → ∀ (k : ℕ) (a : Rec K), recs[k]? = some a →
        InContact mat mesh.rows o.tol a.Z a.x (fun j => a.x (2 * mesh.rows.length + j)) pairs) := by
  obtain ⟨Km, cs, hK, hC, -, -⟩ := solve_run h
  obtain ⟨bl, hs, l, hA, hpos, hc, rfl, hnK, hn, hnC, hZ, hsd, hrecs⟩ := solve_sound h hm hp hK hC
  have hN : Km.nrows = 2 * mesh.rows.length := hnK
  have hnl : cs.C.nrows = 3 * l.length := hnC
  refine ⟨l.map (fun x => (x.i, x.j)), ?_, ?_, ?_, ?_, ?_⟩
  · rintro ⟨i, j⟩
    constructor
    · intro hmem
      obtain ⟨x, hx, e⟩ := List.mem_map.1 hmem
      cases e
      exact hc.isPair hx
    · intro hpair
      obtain ⟨k, x, hk, e1, e2⟩ := hc.ofPair hpair
      exact List.mem_map.2 ⟨x, List.mem_of_getElem? hk, by simp [e1, e2]⟩
  · have := hc.distinct
    have e : l.map (·.i) = (l.map (fun x => (x.i, x.j))).map Prod.fst := by rw [List.map_map]; rfl
    rw [e] at this
    exact this.of_map
  · rw [List.length_map]; exact hnC
  · intro size t i hi
    have hload := fun f c => nodeLoad_eq (Km := Km) (cs := cs) hN f (c := c)
    refine ⟨rfl, rfl, ?_, ?_⟩
    · show (assemble Km cs).nodeLoad _ (2 * i) = _
      rw [hload _ _ (by omega), netLoad_eq hc _ hi hnl, hnK]
    · show (assemble Km cs).nodeLoad _ (2 * i + 1) = _
      rw [hload _ _ (by omega)]
      congr 1
      apply Finset.sum_eq_zero
      intro j hj
      rw [hc.odd (Finset.mem_range.1 hj) hi, mul_zero]
  · intro hlin hperm n a ha k i j hk'
    have hi : StepInv (assemble Km cs) (Frozen bl) a := hsd.inv (by rw [← hrecs]; exact ha)
    rw [List.getElem?_map] at hk'
    obtain ⟨x, hk, e⟩ := Option.map_eq_some_iff.1 hk'
    cases e
    have hkl := (List.getElem?_eq_some_iff.1 hk).1
    obtain ⟨i1, i2, e1, e2, e3, e4⟩ := contact_data hc.thick (hc.contact x (List.mem_of_getElem? hk))
    have hcl := fun d (hd : d < 3) => C44_complementary h hm hp hlin hperm hC n a ha (3 * k + d) (by omega)
    have hq : ∀ d, d < 3 → a.q (2 * mesh.rows.length + (3 * k + d)) =
        ((contactBounds cs.Z x)[d]?).getD (.fin 0) + .fin ((if d = 2 then 1 else 0) * (a.Z - cs.Z)) := by
      intro d hd
      rw [hi.bounds, hc.q0 hN hk hd, hc.dq hN hk hd]
      rfl
    refine ⟨?_, ?_, ?_⟩
    · intro hf
      obtain ⟨H, h1, h2⟩ := hcl 0 (by omega) hf
      rw [hq 0 (by omega)] at h1
      simp only [contactBounds, List.getElem?_cons_zero, Option.getD_some, Cell.fin_add_fin, Cell.fin.injEq] at h1
      rw [hc.row hk (by omega) a.x, ← h1] at h2
      simp only [if_true, e1, e3] at h2
      norm_num at h2
      unfold floorGap
      linarith
    · intro hf
      obtain ⟨H, h1, h2⟩ := hcl 1 (by omega) hf
      rw [hq 1 (by omega)] at h1
      by_cases hij : x.i = x.j
      · simp [contactBounds, hij] at h1
        exact absurd h1 (by rintro ⟨⟩)
      · refine ⟨hij, ?_⟩
        simp only [contactBounds, if_neg hij, List.getElem?_cons_succ, List.getElem?_cons_zero, Option.getD_some, Cell.fin_add_fin,
          Cell.fin.injEq] at h1
        rw [hc.row hk (by omega) a.x, ← h1] at h2
        simp only [if_true, e1, e2, e3, e4, one_ne_zero, if_false] at h2
        norm_num at h2
        unfold pairGap
        linarith
    · intro hf
      obtain ⟨H, h1, h2⟩ := hcl 2 (by omega) hf
      rw [hq 2 (by omega)] at h1
      simp only [contactBounds, List.getElem?_cons_succ, List.getElem?_cons_zero, Option.getD_some, Cell.fin_add_fin,
          Cell.fin.injEq] at h1
      rw [hc.row hk (by omega) a.x, ← h1] at h2
      simp only [if_true, e2, e4] at h2
      norm_num at h2
      unfold roofGap
      linarith

/-- C88: the picture made by `main.py`, at pseudo-time 1, shows the last record. -/
theorem C88_last (S : Sys K) (hlen : 2 ≤ recs.length) (size : Option ℕ) (hs : ∀ k, size = some k → 2 ≤ k) :
    ∃ a, recs.getLast? = some a ∧ ∀ i,
      (exportFields S recs size 1).displacement i = a.x (2 * i) ∧ (exportFields S recs size 1).rotation i = a.x (2 * i + 1) ∧
      (exportFields S recs size 1).force i = S.nodeLoad (fun k => a.x (S.nK + k)) (2 * i) ∧
      (exportFields S recs size 1).moment i = S.nodeLoad (fun k => a.x (S.nK + k)) (2 * i + 1) := by
  have hx : ∀ c, interpolate .linear (recs.map (fun a => a.x c)) size 1 = (recs[recs.length - 1]'(by omega)).x c := by
    intro c
    rw [(C51_ends .linear (recs.map (fun a => a.x c)) (by simpa using hlen) size hs).2]
    simp
  refine ⟨recs[recs.length - 1]'(by omega), ?_, ?_⟩
  · rw [List.getLast?_eq_getElem?, List.getElem?_eq_getElem (by omega)]
  · intro i
    refine ⟨hx _, hx _, ?_, ?_⟩ <;> simp only [exportFields, hx]

/-- C88: at every pseudo-time the loads shown on the nodes of one fiber add up to zero. -/
theorem C88_balance (h : solve mat mesh lmin lmax coupling o perm = .ok (S, recs, stop)) (hm : GoodMat mat)
    (hv : ValidMesh mesh.frame) (hp : PositiveLengths mesh.rows lmin lmax) (htol : 0 ≤ o.tol) (hlin : ExactLin o.lin)
    (hperm : PermOf S.n perm) (hlen : 2 ≤ recs.length) (size : Option ℕ) (hs : ∀ k, size = some k → 2 ≤ k) {t : K}
    (h0 : 0 ≤ t) (h1 : t ≤ 1) :
    ∃ F : ℕ → K, (∀ i, i < mesh.rows.length → (exportFields S recs size t).force i = .fin (F i)) ∧
      ∀ m, ∑ i ∈ nodesOf mesh.rows m, F i = 0 := by
  obtain ⟨Km, cs, hK, hC, -, -⟩ := solve_run h
  obtain ⟨bl, hs', l, hA, hpos, hc, rfl, hnK, hn, hnC, hZ, hsd, hrecs⟩ := solve_sound h hm hp hK hC
  obtain ⟨w, w0, w1, hw⟩ := C52_weights (K := K) .linear hlen size hs h0 h1
  have hN : Km.nrows = 2 * mesh.rows.length := hnK
  refine ⟨_, fun i hi => nodeLoad_eq hN _ (by omega), ?_⟩
  intro m
  have hterm : ∀ k ∈ Finset.range recs.length, w k * ∑ i ∈ nodesOf mesh.rows m, ∑ j ∈ Finset.range cs.C.nrows,
      (recs.map (fun a => a.x (2 * mesh.rows.length + j))).getD k 0 * cs.C.get j (2 * i) = 0 := by
    intro k hk
    have hk := Finset.mem_range.1 hk
    have := C67_fiber h hm hv hp htol hlin hperm hC k recs[k] (List.getElem?_eq_getElem hk) m
    unfold contactForce at this
    rw [Finset.sum_neg_distrib, neg_eq_zero] at this
    rw [mul_eq_zero]
    right
    rw [← this]
    apply Finset.sum_congr rfl
    intro i _
    apply Finset.sum_congr rfl
    intro j _
    simp [List.getD_eq_getElem?_getD, hk, mul_comm]
  rw [← Finset.sum_eq_zero hterm]
  simp only [Finset.mul_sum]
  symm
  rw [Finset.sum_comm]
  apply Finset.sum_congr rfl
  intro i _
  rw [Finset.sum_comm]
  apply Finset.sum_congr rfl
  intro j _
  symm
  show interpolate .linear (recs.map (fun a => a.x ((assemble Km cs).nK + j))) size t * _ = _
  rw [hnK, hw _ (by simp), Finset.sum_mul]
  apply Finset.sum_congr rfl
  intro k _
  ring

/-- C88: as the moments are zero, the load shown between two successive nodes lies between the loads of these nodes, and equals
them at the nodes. -/
theorem C88_between (force moment : ℕ → K) (hz : ∀ i, moment i = 0) {m j : ℕ} (hj : j + 1 < m) {r : K} (h0 : 0 ≤ r) (h1 : r ≤ 1) :
    min (force j) (force (j + 1)) ≤ forceAt force moment m (j + r) ∧
    forceAt force moment m (j + r) ≤ max (force j) (force (j + 1)) ∧
    forceAt force moment m (j : K) = force j := by
  have hn : ∀ k, k < m → forceAt force moment m (k : K) = force k := by
    intro k hk
    have := (C57_nodes ((List.range m).map force) ((List.range m).map moment) (by simp; omega) (k := k) (by simpa using hk)).1
    rw [forceAt, this]
    simp [List.getD_eq_getElem?_getD, hk]
  refine ⟨?_, ?_, hn j (by omega)⟩
  all_goals
    rcases eq_or_lt_of_le h1 with rfl | h1'
    · have := hn (j + 1) hj
      push_cast at this
      rw [this]
      simp
  all_goals
    have hi : interval m ((j : K) + r) = j := interval_of hj (by linarith) (by linarith)
    have e : forceAt force moment m (j + r) = force j + (force (j + 1) - force j) * (r * r * (3 - 2 * r)) := by
      simp only [forceAt, hermite, List.length_map, List.length_range, hi]
      simp [List.getD_eq_getElem?_getD, hj, (by omega : j < m), hz]
      ring
    have p0 : 0 ≤ r * r * (3 - 2 * r) := by nlinarith [mul_nonneg h0 h0]
    have p1 : r * r * (3 - 2 * r) ≤ 1 := by nlinarith [mul_nonneg h0 h0, mul_nonneg (sub_nonneg.2 h1) (sub_nonneg.2 h1)]
    rw [e]
    rcases le_total (force j) (force (j + 1)) with hle | hle
  · rw [min_eq_left hle]; nlinarith
  · rw [min_eq_right hle]; nlinarith
  · rw [max_eq_right hle]; nlinarith
  · rw [max_eq_left hle]; nlinarith

/-- Loads at the end of the run of two crossing fibers: the ends of the lower one are held up by the floor, its middle is pushed
down, the upper one is pushed equally from both sides. -/
def archLoads : List (Cell ℚ) :=
  [.fin (-74456352340099331 / 15078051552436420608), .fin (74456352340099331 / 7539025776218210304),
    .fin (-74456352340099331 / 15078051552436420608), .fin 0, .fin 0, .fin 0]

/-- The run of two crossing fibers meets the hypotheses; the load shown on the node of the lower fiber that carries the upper one
is not zero. -/
example : ∃ S recs, solve duoMat archMesh none none (1 / 2) archOpts none = .ok (S, recs, .blocked) ∧ GoodMat duoMat ∧
    ValidMesh archMesh.frame ∧ PositiveLengths archMesh.rows none none ∧ 0 ≤ archOpts.tol ∧ ExactLin archOpts.lin ∧
    PermOf S.n none ∧ 2 ≤ recs.length ∧
    (List.range 6).map (exportFields S recs (some 4) 1).force = archLoads := by
  have hx : (solve duoMat archMesh none none (1 / 2) archOpts none).toOption.map (fun r =>
      (((List.range 6).map (exportFields r.1 r.2.1 (some 4) 1).force, r.2.1.length), r.2.2)) = some ((archLoads, 3), .blocked) := by
    decide +kernel
  cases h : solve duoMat archMesh none none (1 / 2) archOpts none with
  | error e => rw [h] at hx; cases hx
  | ok r =>
    rw [h] at hx
    obtain ⟨S, recs, stop⟩ := r
    simp only [Except.toOption, Option.map_some, Option.some.injEq, Prod.mk.injEq] at hx
    obtain ⟨⟨h1, h2⟩, rfl⟩ := hx
    exact ⟨S, recs, rfl, duoMat_good, archMesh_valid, archMesh_lengths, by norm_num [archOpts], lookup_exact _,
      by rintro p ⟨⟩, by omega, h1⟩

/-- Half way between two nodes the mean of their loads is shown. -/
example : forceAt (fun i => if i = 1 then (3 : ℚ) else 1) (fun _ => 0) 3 (1 / 2) = 2 ∧ (0 : ℕ) + 1 < 3 := by
  constructor
  · decide +kernel
  · decide

end Fibermat
