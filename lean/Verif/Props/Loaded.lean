import Verif.Props.Linked
import Verif.Props.Pipeline
import Verif.Props.Curve

/-! # Stacked mats carry a force from the first step on (C135) -/

set_option linter.unusedSectionVars false
set_option linter.unusedSimpArgs false

namespace Fibermat
variable {K : Type} [Field K] [LinearOrder K] [IsStrictOrderedRing K]
open Spec

section
variable {mat : Mat K} {mesh : Mesh K} {tol Z : K} {u : ℕ → K}

/-- The beam that starts at a node stays on its fiber. -/
theorem beam_sameFiber (hv : ValidMesh mesh.frame) {i : ℕ} (hb : StartsBeam mesh.rows i) : SameFiber mesh.rows i (succNode mesh.rows i) := by
  have hbeams : BeamsCyclic mesh.rows := by have := hv.beams; rwa [rows_meshFrame] at this
  obtain ⟨r, hr, hlt⟩ := hb
  obtain ⟨j, hj, -⟩ := hbeams i r hr
  obtain ⟨-, p, hp, hf⟩ := beam_next hbeams hr hj (by omega)
  have e : succNode mesh.rows i = j := by
    unfold succNode
    rw [hr, Option.map_some, Option.getD_some, hj, Int.toNat_natCast]
  rw [e]
  exact ⟨r, p, hr, hp, hf.symm⟩

/-- The nodes of a fiber are linked by its beams. -/
theorem chained_fiber (hv : ValidMesh mesh.frame) {i j : ℕ} (h : SameFiber mesh.rows i j) : Chained mat mesh.rows tol u i j := by
  wlog hij : i ≤ j generalizing i j
  · obtain ⟨r, p, h1, h2, h3⟩ := h
    exact linked_symm (this ⟨p, r, h2, h1, h3.symm⟩ (by omega))
  have key : ∀ m, i ≤ m → m ≤ j → Chained mat mesh.rows tol u i m := by
    intro m him
    induction m, him using Nat.le_induction with
    | base => intro _; exact Relation.ReflTransGen.refl
    | succ m him ih =>
      intro hm
      obtain ⟨hb, hs⟩ := chain_beams hv h him (by omega)
      have := linked_beam (mat := mat) (tol := tol) (u := u) hb
      rw [hs] at this
      exact (ih (by omega)).trans this
  exact key j hij le_rfl

/-- C135: no fiber can be translated without changing a closed gap exactly if each node is linked with one of the plates. -/
theorem C135_supported (hv : ValidMesh mesh.frame) : ¬ Unsupported mat mesh.rows tol Z u ↔
    ∀ i, i < mesh.rows.length → Hung mat mesh.rows tol Z u i ∨ Based mat mesh.rows tol u i := by
  classical
  constructor
  · intro hs
    by_contra hno
    push Not at hno
    obtain ⟨i, hi, h1, h2⟩ := hno
    refine hs ⟨fun r => if Hung mat mesh.rows tol Z u (r / 2) ∨ Based mat mesh.rows tol u (r / 2) then 0 else 1, ⟨i, hi, ?_⟩, ?_, ?_⟩
    · beta_reduce
      rw [Nat.mul_div_cancel_left i (by omega : 0 < 2), if_neg (by tauto)]
      exact one_ne_zero
    · intro i j hij
      have hl := chained_fiber (mat := mat) (tol := tol) (u := u) hv hij
      simp only [Nat.mul_div_cancel_left _ (by omega : 0 < 2), hung_linked (Z := Z) hl, based_linked hl]
    · intro i j hij
      simp only [Nat.mul_div_cancel_left _ (by omega : 0 < 2)]
      refine ⟨fun hg => ?_, fun hne hg => ?_, fun hg => ?_⟩
      · rw [if_pos (Or.inr ⟨i, ⟨j, hij, hg⟩, Relation.ReflTransGen.refl⟩)]
      · have hl := linked_pair (mat := mat) (tol := tol) (u := u) hij hne hg
        simp only [hung_linked (Z := Z) hl, based_linked hl]
      · rw [if_pos (Or.inl ⟨j, ⟨i, hij, hg⟩, Relation.ReflTransGen.refl⟩)]
  · rintro hall ⟨v, ⟨i, hi, hvi⟩, hsf, hk⟩
    have hconst : ∀ {m n : ℕ}, Chained mat mesh.rows tol u m n → v (2 * m) = v (2 * n) := fun {m n} hl =>
      linked_const (P := fun _ => True) (fun _ _ _ => Iff.rfl) (g := fun i => v (2 * i))
        (fun i hi _ => (hsf _ _ (beam_sameFiber hv hi)).symm) (fun i j hij hne hg _ => (hk i j hij).2.1 hne hg) hl trivial
    rcases hall i hi with ⟨n, ⟨j, hj, hg⟩, hl⟩ | ⟨n, ⟨j, hj, hg⟩, hl⟩
    · exact hvi ((hconst hl).trans ((hk j n hj).2.2 hg))
    · exact hvi ((hconst hl).trans ((hk n j hj).1 hg))

/-- A highest node of a mat in which nodes do not penetrate each other touches the plate. -/
theorem top_touches (hm : GoodMat mat) (htol : 0 ≤ tol) {hs : List K} {cs : ConstraintSys K} {l : List (Contact K)}
    (hc : Contacts mat mesh.rows cs hs l) (hcr : ConstraintsReciprocal mesh.rows) (hnp : NonPenetrating mat mesh.rows Z u)
    (htop : IsTop mat (mesh.deform u).rows Z) : ∃ m, m < mesh.rows.length ∧ TouchesPlate mat mesh.rows tol Z u m := by
  obtain ⟨⟨t, ht, hZ⟩, hall⟩ := htop
  rw [deform_length] at ht
  rw [deform_nodeHeight ht, deform_nodeThick] at hZ
  obtain ⟨j, p, hj, hpj, hpt⟩ := hcr t _ (List.getElem?_eq_getElem ht)
  have hjl := (List.getElem?_eq_some_iff.1 hpj).1
  rcases Nat.lt_or_ge t j with hlt | hge
  · exfalso
    have h1 := hnp.pair t j _ (List.getElem?_eq_getElem ht) hj hlt
    have h2 := hnp.roof j hjl
    have h3 := nodeThick_pos hm hc.thick hjl
    linarith
  · refine ⟨t, ht, j, ⟨hge, p, hpj, hpt⟩, ?_⟩
    unfold roofGap
    rw [hZ]
    linarith

end

section Kept
variable {mat : Mat K} {mesh : Mesh K} {lmin lmax : Option K} {coupling : K} {o : Opts K} {perm : Option (List ℕ)}
  {S : Sys K} {recs : List (Rec K)} {stop : Stop}

/-- C135: nodes linked with each other, with the floor or with the plate stay so to the end of the run. -/
theorem C135_kept (h : solve mat mesh lmin lmax coupling o perm = .ok (S, recs, stop)) (hm : GoodMat mat)
    (hp : PositiveLengths mesh.rows lmin lmax) (htol : 0 ≤ o.tol) (hlin : ExactLin o.lin) (hperm : PermOf S.n perm)
    (k m : ℕ) (hkm : k ≤ m) (a b : Rec K) (ha : recs[k]? = some a) (hb : recs[m]? = some b) :
    (∀ i j, Chained mat mesh.rows o.tol a.x i j → Chained mat mesh.rows o.tol b.x i j) ∧
    (∀ i, Hung mat mesh.rows o.tol a.Z a.x i → Hung mat mesh.rows o.tol b.Z b.x i) ∧
    (∀ i, Based mat mesh.rows o.tol a.x i → Based mat mesh.rows o.tol b.x i) := by
  have hk := C75_kept h hm hp htol hlin hperm k m hkm a b ha hb
  have hj : ∀ i j, Joined mat mesh.rows o.tol a.x i j → Joined mat mesh.rows o.tol b.x i j := by
    rintro i j (hs | ⟨h1, h2, h3⟩)
    · exact Or.inl hs
    · exact Or.inr ⟨h1, h2, by rw [(hk i j h1).2.1 h2 h3]; exact h3⟩
  have hc : ∀ i j, Chained mat mesh.rows o.tol a.x i j → Chained mat mesh.rows o.tol b.x i j :=
    fun i j hh => by
      induction hh with
      | refl => exact Relation.ReflTransGen.refl
      | tail _ h2 ih => exact ih.tail (h2.imp (hj _ _) (hj _ _))
  refine ⟨hc, ?_, ?_⟩
  · rintro i ⟨n, ⟨j, h1, h2⟩, h3⟩
    exact ⟨n, ⟨j, h1, by rw [(hk j n h1).2.2 h2]; exact h2⟩, hc _ _ h3⟩
  · rintro i ⟨n, ⟨j, h1, h2⟩, h3⟩
    exact ⟨n, ⟨j, h1, by rw [(hk n j h1).1 h2]; exact h2⟩, hc _ _ h3⟩

end Kept

section Chain
variable {lp : Linprog K} {m m' : Mat K} {periodic : Bool} {net st : Net K} {threshold : Option K} {mesh : Mesh K}
variable {lmin lmax : Option K} {coupling : K} {o : Opts K} {perm : Option (List ℕ)} {S : Sys K} {recs : List (Rec K)} {stop : Stop}

section
variable (hlp : GoodLinprog lp) (h : GoodMat m) (hw : ∀ f ∈ m.fibers, f.w = 0)
    (hn : netNew m periodic = .ok net) (hst : stackNew lp m net threshold = .ok (m', st)) (hth : KeepsTouching m threshold)
    (hmesh : meshNew st = .ok mesh) (hs : solve m' mesh lmin lmax coupling o perm = .ok (S, recs, stop))
    (hp : PositiveLengths mesh.rows lmin lmax) (htol : 0 ≤ o.tol) (hlin : ExactLin o.lin) (hperm : PermOf S.n perm)
include hlp h hw hn hst hth hmesh hs hp htol hlin hperm

/-- C135: at each state of the compression of a planar stacked mat, every node is linked with the floor, and some node with the
plate. -/
theorem C135_based (k : ℕ) (a : Rec K) (ha : recs[k]? = some a) :
    (∀ i, i < mesh.rows.length → Based m' mesh.rows o.tol a.x i) ∧ Bridged m' mesh.rows o.tol a.Z a.x := by
  have hne := chain_nonempty hlp h hn hst hmesh hs
  obtain ⟨net', g1, rfl, hgood, hsame, hend, h3, hvalid, hof, hner⟩ := chain_facts hlp h hne hn hst hmesh
  have hcr := C26_reciprocal h3
  obtain ⟨-, a0, ha0, hx0, -, hZ0, -⟩ := C40_itermax hs
  have e : a0.x = fun _ => 0 := funext hx0
  have hnp0 := (C78_nonPenetrating hlp h hw hn hst hmesh hs hp htol hlin hperm 0 a0 ha0).1
  have hb0 : ∀ i, i < mesh.rows.length → Based m' mesh.rows o.tol a0.x i := by
    intro i hi
    have hsup := C78_supported hlp h hw hn hst hth hmesh htol (a0.Z + o.tol + 1)
    rw [← e] at hsup
    rcases (C135_supported hvalid).1 hsup i hi with ⟨n, ⟨j, ⟨-, r, hr, hrc⟩, hg⟩, -⟩ | hb
    · exfalso
      obtain ⟨n', p, hn', hp', -⟩ := hcr j r hr
      have en : n' = n := by rw [hrc] at hn'; exact_mod_cast hn'.symm
      subst en
      have := hnp0.roof n' (List.getElem?_eq_some_iff.1 hp').1
      unfold roofGap at hg
      linarith
    · exact hb
  have hb := fun i hi => (C135_kept hs hgood hp htol hlin hperm 0 k (by omega) a0 a ha0 ha).2.2 i (hb0 i hi)
  refine ⟨hb, ?_⟩
  obtain ⟨hnp, htop⟩ := C78_nonPenetrating hlp h hw hn hst hmesh hs hp htol hlin hperm k a ha
  obtain ⟨Km, cs, -, hC, -⟩ := solve_run hs
  obtain ⟨hs', l, hc⟩ := contacts_of hC
  obtain ⟨t, ht, htp⟩ := top_touches (tol := o.tol) hgood htol hc hcr hnp htop
  exact ⟨t, ⟨t, htp, Relation.ReflTransGen.refl⟩, hb t ht⟩

variable (hcoup : |coupling| ≤ 1) (hor : |coupling| < 1 ∨ ∀ f ∈ m.fibers, f.E = ⊤) {cs : ConstraintSys K} (hC : constraint m' mesh = .ok cs)
include hcoup hor hC

/-- C135: in the compression of a planar stacked mat the force of the plate grows in every step. -/
theorem C135_grows (k : ℕ) (a b : Rec K) (ha : recs[k]? = some a) (hb : recs[k + 1]? = some b) :
    totalForce cs.C (fun j => a.x (2 * mesh.rows.length + j)) 2 < totalForce cs.C (fun j => b.x (2 * mesh.rows.length + j)) 2 := by
  have hne := chain_nonempty hlp h hn hst hmesh hs
  obtain ⟨net', g1, rfl, hgood, hsame, hend, h3, hvalid, hof, hner⟩ := chain_facts hlp h hne hn hst hmesh
  obtain ⟨Km, -, hK, -, -⟩ := solve_run hs
  obtain ⟨-, ⟨L, hL⟩, -⟩ := C65_lengths hK
  exact (C134_grows hs hgood hvalid hp hcoup hL htol hlin hperm (hor.imp_right (same_tensile hsame)) hC k a b ha hb).2
    (C135_based hlp h hw hn hst hth hmesh hs hp htol hlin hperm k a ha).2

/-- C135: no packing without force: the force of the plate is positive at all records after the first. -/
theorem C135_positive (k : ℕ) (hk : 0 < k) (a : Rec K) (ha : recs[k]? = some a) :
    0 < totalForce cs.C (fun j => a.x (2 * mesh.rows.length + j)) 2 := by
  have hne := chain_nonempty hlp h hn hst hmesh hs
  obtain ⟨net', g1, rfl, hgood, hsame, hend, h3, hvalid, hof, hner⟩ := chain_facts hlp h hne hn hst hmesh
  obtain ⟨Km, -, hK, -, -⟩ := solve_run hs
  obtain ⟨-, ⟨L, hL⟩, -⟩ := C65_lengths hK
  obtain ⟨-, a0, ha0, -⟩ := C40_itermax hs
  exact (C134_first hs hgood hvalid hp hcoup hL htol hlin hperm (hor.imp_right (same_tensile hsame)) hC k a ha).2
    ⟨0, a0, hk, ha0, (C135_based hlp h hw hn hst hth hmesh hs hp htol hlin hperm 0 a0 ha0).2⟩

/-- C135: the returned force of the plate strictly increases with the pseudo-time, sampled again or not. -/
theorem C135_curve (hlen : 2 ≤ recs.length) (size : Option ℕ) (hsz : ∀ k, size = some k → 2 ≤ k) {t s : K} (h0 : 0 ≤ t) (hts : t < s)
    (h1 : s ≤ 1) : forceAt cs.C (2 * mesh.rows.length) recs size t < forceAt cs.C (2 * mesh.rows.length) recs size s := by
  rw [forceAt_eq hlen size hsz h0 (hts.le.trans h1), forceAt_eq hlen size hsz (h0.trans hts.le) h1]
  set Fs := recs.map (recForce cs.C (2 * mesh.rows.length)) with hFs
  have hFl : Fs.length = recs.length := by simp [hFs]
  set Zs := Fs.map (fun x => -x) with hZs
  have hZl : Zs.length = recs.length := by simp [hZs, hFl]
  have hneg : ∀ r : K, 0 ≤ r → r ≤ 1 → interpolate .linear Zs size r = - interpolate .linear Fs size r := by
    intro r r0 r1
    obtain ⟨w, -, -, hw⟩ := C52_weights (K := K) .linear hlen size hsz r0 r1
    rw [hw Zs hZl, hw Fs hFl, ← Finset.sum_neg_distrib]
    refine Finset.sum_congr rfl fun k hk => ?_
    have hk := Finset.mem_range.1 hk
    have hk' : k < Fs.length := by omega
    simp [hZs, List.getD_eq_getElem?_getD, hk']
  set Os := recs.map (fun _ => (0 : K)) with hOs
  have hOl : Os.length = Zs.length := by simp [hOs, hZl]
  have hO : ∀ k, Os.getD k 0 = 0 := by
    intro k
    simp only [hOs, List.getD_eq_getElem?_getD, List.getElem?_map]
    cases recs[k]? <;> rfl
  have hl : ConvexLine Zs.length (fun k => Zs.getD k 0) (fun k => Os.getD k 0) := by
    constructor
    · intro k hk
      have hk' : k + 1 < recs.length := by omega
      have := C135_grows hlp h hw hn hst hth hmesh hs hp htol hlin hperm hcoup hor hC k _ _
        (List.getElem?_eq_getElem (by omega)) (List.getElem?_eq_getElem hk')
      simp only [hZs, hFs, List.getD_eq_getElem?_getD, List.getElem?_map, List.getElem?_eq_getElem hk',
        List.getElem?_eq_getElem (show k < recs.length by omega), Option.map_some, Option.getD_some, neg_lt_neg_iff]
      exact this
    · intro k _
      simp only [hO]
      simp
  have hN : 2 ≤ samples Zs size := by
    cases size with
    | none => show 2 ≤ Zs.length; omega
    | some n => exact hsz n rfl
  have hn2 : 2 ≤ Zs.length := by omega
  have := line_samples (Zs := (linspace (samples Zs size) : List K).map (interp1d .linear (linspace Zs.length) Zs (Zs.getLastD 0)))
    (Fs := (linspace (samples Zs size) : List K).map (interp1d .linear (linspace Zs.length) Os (Os.getLastD 0)))
    (by simp) (by rw [resample_length]; exact hN) (by rw [resample_length]; exact line_sampled hOl hn2 hl _ _ hN)
    (Zs.getLastD 0) 0 h0 hts h1
  rw [resample_length, ← interpolate_eq, ← interpolate_eq, hneg t h0 (hts.le.trans h1), hneg s (h0.trans hts.le) h1] at this
  linarith

end
end Chain

end Fibermat
