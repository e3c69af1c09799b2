import Verif.Props.Plate
import Verif.Spec.First

/-! # Every step ends exactly when a further gap closes (C137) -/

set_option linter.unusedSectionVars false
set_option linter.unusedSimpArgs false

namespace Fibermat
variable {K : Type} [Field K] [LinearOrder K] [IsStrictOrderedRing K]
open Spec

/-- The residual of a contact row is the gap of the contact. -/
theorem Contacts.gap_geo {mat : Mat K} {rows : List (MeshRow K)} {cs : ConstraintSys K} {hs : List K} {l : List (Contact K)}
    {Km : Coo (Cell K)} {T : ℕ → ℕ → K} (hc : Contacts mat rows cs hs l) (hN : Km.nrows = 2 * rows.length)
    (hn : (assemble Km cs).n = 2 * rows.length + 3 * l.length) {k d : ℕ} {x : Contact K} (hk : l[k]? = some x) (hd : d < 3)
    (hdj : d = 1 → x.i ≠ x.j) :
    ∃ c, (assemble Km cs).q0 (2 * rows.length + (3 * k + d)) = .fin c ∧
      ∀ a : Rec K, gap (assemble Km cs) (wholeTable (2 * rows.length) T cs.C) a c (2 * rows.length + (3 * k + d)) =
        geoGap mat rows a.Z a.x x d := by
  have hxl := List.mem_of_getElem? hk
  obtain ⟨i1, i2, e1, e2, e3, e4⟩ := contact_data hc.thick (hc.contact x hxl)
  have hq := hc.q0 (Km := Km) hN hk hd
  have hrow := fun u => hc.row hk hd u
  have hap := fun u => apply_constraint (N := 2 * rows.length) (T := T) (C := cs.C) hn (by rw [hc.C]) u (3 * k + d)
  have hdq := hc.dq (Km := Km) hN hk hd
  have hZ0 : (assemble Km cs).Z0 = cs.Z := rfl
  rcases (by omega : d = 0 ∨ d = 1 ∨ d = 2) with rfl | rfl | rfl
  · refine ⟨x.zi - x.hi / 2, by rw [hq]; rfl, fun a => ?_⟩
    simp only [gap, hap, hrow, hdq, geoGap, floorGap, if_true, e1, e3]
    simp; ring
  · have hij := hdj rfl
    refine ⟨x.zj - x.zi - (x.hi + x.hj) / 2, by rw [hq]; simp [contactBounds, hij], fun a => ?_⟩
    simp only [gap, hap, hrow, hdq, geoGap, pairGap, e1, e2, e3, e4]
    simp; ring
  · refine ⟨cs.Z - x.zj - x.hj / 2, by rw [hq]; rfl, fun a => ?_⟩
    simp only [gap, hap, hrow, hdq, geoGap, roofGap, e2, e4, hZ0]
    simp; ring

variable {mat : Mat K} {mesh : Mesh K} {lmin lmax : Option K} {coupling : K} {o : Opts K} {perm : Option (List ℕ)}
  {S : Sys K} {recs : List (Rec K)} {stop : Stop}

/-- C137: every step of an exact run ends exactly when one of the gaps that were open closes; until then, all of them stay open, and
at the end none of them has been crossed. -/
theorem C137_first (h : solve mat mesh lmin lmax coupling o perm = .ok (S, recs, stop)) (hm : GoodMat mat)
    (hp : PositiveLengths mesh.rows lmin lmax) (htol : 0 ≤ o.tol) (hlin : ExactLin o.lin) (hperm : PermOf S.n perm)
    (k : ℕ) (a b : Rec K) (ha : recs[k]? = some a) (hb : recs[k + 1]? = some b) :
    ∃ v : ℕ → K, (∀ r, b.x r = a.x r - (a.Z - b.Z) * v r) ∧
      NewlyClosed mat mesh.rows o.tol a.Z a.x b.Z b.x ∧
      ∀ t, 0 ≤ t → t < a.Z - b.Z → StillOpen mat mesh.rows o.tol a.Z a.x (a.Z - t) (fun r => a.x r - t * v r) := by
  obtain ⟨Km, cs, hK, hC, -, -⟩ := solve_run h
  obtain ⟨bl, hs, l, has, hpos, hc, rfl, hnK, hn, hnC, hZ, hsd, rfl⟩ := solve_sound h hm hp hK hC
  have hN : Km.nrows = 2 * mesh.rows.length := by rw [has.eq]
  obtain ⟨dx, t, s, hst⟩ := hsd.next ha hb
  have ht : a.Z - b.Z = t := by rw [hst.Z]; ring
  have hnr : ∀ q d, ¬ Frozen bl (2 * mesh.rows.length + (3 * q + d)) := by
    intro q d hr
    have : _ < Km.nrows := hsd.lt _ hr
    omega
  refine ⟨dx, fun r => by rw [hst.x, ht]; ring, ?_, ?_⟩
  · obtain ⟨r, c, hr, hg, hc0, hopen, hrate, heq⟩ := hst.hit
    have hge : 2 * mesh.rows.length ≤ r := by
      by_contra hlt
      have hlt' : r < (assemble Km cs).nK := by change r < Km.nrows; omega
      obtain ⟨hq, hdq⟩ := hsd.force r hlt'
      rw [hq] at hc0
      obtain rfl : (0 : K) = c := by simpa using hc0
      have := hsd.balance_exact (o := { o with perm := perm.getD (List.range (assemble Km cs).n) }) hlin (permOf_getD hperm) htol
        hlt' hg ha
      rw [gap, this, hdq] at hopen
      simp at hopen
      exact absurd hopen (not_lt.2 htol)
    obtain ⟨j, rfl⟩ := Nat.exists_eq_add_of_le hge
    have hj : j < 3 * l.length := by omega
    obtain ⟨q, d, hd, rfl⟩ : ∃ q d, d < 3 ∧ j = 3 * q + d := ⟨j / 3, j % 3, by omega, by omega⟩
    have hq : l[q]? = some (l[q]'(by omega)) := List.getElem?_eq_getElem (by omega)
    set x := l[q]'(by omega) with hx
    have hdj : d = 1 → x.i ≠ x.j := by
      rintro rfl hij
      rw [hc.q0 (Km := Km) hN hq hd] at hc0
      simp [contactBounds, hij] at hc0
    obtain ⟨c', hc', hgeo⟩ := hc.gap_geo (T := table mesh.rows coupling bl) hN hn hq hd hdj
    rw [hc'] at hc0
    obtain rfl : c' = c := by simpa using hc0
    rw [hc.rates hN hn hq hd] at heq
    rw [hgeo] at hopen heq
    refine ⟨x.i, x.j, hc.isPair (List.mem_of_getElem? hq), ?_⟩
    rcases (by omega : d = 0 ∨ d = 1 ∨ d = 2) with rfl | rfl | rfl
    · left
      simp only [geoGap, if_true] at hopen heq
      refine ⟨hopen, ?_⟩
      simp only [floorGap, hst.x] at heq ⊢
      linarith
    · right; left
      simp only [geoGap, one_ne_zero, if_true, if_false] at hopen heq
      refine ⟨hdj rfl, hopen, ?_⟩
      simp only [pairGap, hst.x] at heq ⊢
      linarith
    · right; right
      simp only [geoGap, OfNat.ofNat_ne_zero, OfNat.ofNat_ne_one, if_false] at hopen heq
      refine ⟨hopen, ?_⟩
      simp only [roofGap, hst.x, hst.Z] at heq ⊢
      linarith
  · intro τ h0 hτ i j hij
    rw [ht] at hτ
    obtain ⟨q, x, hq, rfl, rfl⟩ := hc.ofPair hij
    have hql := (List.getElem?_eq_some_iff.1 hq).1
    have key : ∀ d, d < 3 → (d = 1 → x.i ≠ x.j) → o.tol < geoGap mat mesh.rows a.Z a.x x d →
        0 < geoGap mat mesh.rows a.Z a.x x d -
          τ * (if d = 0 then dx (2 * x.i) else if d = 1 then dx (2 * x.j) - dx (2 * x.i) else 1 - dx (2 * x.j)) := by
      intro d hd hdj hopen
      obtain ⟨c, hc0, hgeo⟩ := hc.gap_geo (T := table mesh.rows coupling bl) hN hn hq hd hdj
      have := hst.lim _ (by omega) (hnr q d) c hc0 (by rw [hgeo]; exact hopen)
      rw [hc.rates hN hn hq hd, hgeo] at this
      set r := (if d = 0 then dx (2 * x.i) else if d = 1 then dx (2 * x.j) - dx (2 * x.i) else 1 - dx (2 * x.j))
      rcases le_or_gt r 0 with hr | hr
      · have := mul_nonneg h0 (neg_nonneg.2 hr)
        linarith
      · have h2 := mul_lt_mul_of_pos_right hτ hr
        have := this hr
        linarith
    refine ⟨fun hg => ?_, fun hne hg => ?_, fun hg => ?_⟩
    · have := key 0 (by omega) (by omega) (by simpa [geoGap] using hg)
      simp only [geoGap, if_true] at this
      simp only [floorGap] at this ⊢
      linarith
    · have := key 1 (by omega) (fun _ => hne) (by simpa [geoGap] using hg)
      simp only [geoGap, one_ne_zero, if_true, if_false] at this
      simp only [pairGap] at this ⊢
      linarith
    · have := key 2 (by omega) (by omega) (by simpa [geoGap] using hg)
      simp only [geoGap, OfNat.ofNat_ne_zero, OfNat.ofNat_ne_one, if_false] at this
      simp only [roofGap] at this ⊢
      linarith

/-- A step which closes a gap is not shorter than one before whose end all the gaps stay open. -/
theorem step_end_le {rows : List (MeshRow K)} {mat' : Mat K} {tol Z T T' : K} {u u' v v' y : ℕ → K}
    (hthick : ∀ i, i < rows.length → nodeThick mat' rows i = nodeThick mat rows i)
    (hu : ∀ i, i < rows.length → u' (2 * i) = u (2 * i)) (hvv : ∀ i, i < rows.length → v' (2 * i) = v (2 * i))
    (hpair : ∀ i j, IsPair rows i j → i < rows.length ∧ j < rows.length) (hT' : 0 ≤ T')
    (hy : ∀ r, y r = u' r - T' * v' r)
    (hopen : ∀ t, 0 ≤ t → t < T → StillOpen mat rows tol Z u (Z - t) (fun r => u r - t * v r))
    (hclosed : NewlyClosed mat' rows tol Z u' (Z - T') y) : T ≤ T' := by
  by_contra hlt
  obtain ⟨i, j, hij, hcase⟩ := hclosed
  obtain ⟨hi, hj⟩ := hpair i j hij
  obtain ⟨h0, h1, h2⟩ := hopen T' hT' (not_le.1 hlt) i j hij
  simp only [floorGap, pairGap, roofGap, hy, hthick i hi, hthick j hj, hu i hi, hu j hj, hvv i hi, hvv j hj] at h0 h1 h2 hcase
  rcases hcase with ⟨g, e⟩ | ⟨hne, g, e⟩ | ⟨g, e⟩
  · have := h0 g; linarith
  · have := h1 hne g; linarith
  · have := h2 g; linarith

/-- C137: the state and the motion of the nodes determine how far the plate goes: two runs, of any mats with the same thicknesses, with
the same heights and the same motion of the nodes stop the step at the same height. -/
theorem C137_height {mat' : Mat K} {lmin' lmax' : Option K} {coupling' : K} {o' : Opts K} {perm' : Option (List ℕ)} {S' : Sys K}
    {recs' : List (Rec K)} {stop' : Stop}
    (h : solve mat mesh lmin lmax coupling o perm = .ok (S, recs, stop)) (hm : GoodMat mat)
    (hp : PositiveLengths mesh.rows lmin lmax) (htol : 0 ≤ o.tol) (hlin : ExactLin o.lin) (hperm : PermOf S.n perm)
    (h' : solve mat' mesh lmin' lmax' coupling' o' perm' = .ok (S', recs', stop')) (hm' : GoodMat mat')
    (hp' : PositiveLengths mesh.rows lmin' lmax') (htol' : o'.tol = o.tol) (hlin' : ExactLin o'.lin) (hperm' : PermOf S'.n perm')
    (hthick : ∀ i, i < mesh.rows.length → nodeThick mat' mesh.rows i = nodeThick mat mesh.rows i)
    (k k' : ℕ) (a b a' b' : Rec K) (ha : recs[k]? = some a) (hb : recs[k + 1]? = some b) (ha' : recs'[k']? = some a')
    (hb' : recs'[k' + 1]? = some b') (hZ : a'.Z = a.Z) (hx : ∀ i, i < mesh.rows.length → a'.x (2 * i) = a.x (2 * i)) (v v' : ℕ → K)
    (hv : ∀ r, b.x r = a.x r - (a.Z - b.Z) * v r) (hv' : ∀ r, b'.x r = a'.x r - (a'.Z - b'.Z) * v' r)
    (hvv : ∀ i, i < mesh.rows.length → v' (2 * i) = v (2 * i)) : b'.Z = b.Z := by
  obtain ⟨Km, cs, hK, hC, -, -⟩ := solve_run h
  obtain ⟨bl, hs, l, has, hpos, hc, rfl, hnK, hn, hnC, hZ0, hsd, rfl⟩ := solve_sound h hm hp hK hC
  have hpair : ∀ i j, IsPair mesh.rows i j → i < mesh.rows.length ∧ j < mesh.rows.length := by
    intro i j hij
    obtain ⟨q, x, hq, rfl, rfl⟩ := hc.ofPair hij
    have := hc.lt x (List.mem_of_getElem? hq)
    omega
  have hd := C41_down h hm hp htol k a b ha hb
  have hd' := C41_down h' hm' hp' (by rw [htol']; exact htol) k' a' b' ha' hb'
  obtain ⟨w, hw, hcl, hop⟩ := C137_first h hm hp htol hlin hperm k a b ha hb
  obtain ⟨w', hw', hcl', hop'⟩ := C137_first h' hm' hp' (by rw [htol']; exact htol) hlin' hperm' k' a' b' ha' hb'
  have hne : a.Z - b.Z ≠ 0 := ne_of_gt (sub_pos.2 hd)
  have hne' : a'.Z - b'.Z ≠ 0 := ne_of_gt (sub_pos.2 hd')
  obtain rfl : w = v := by
    funext r
    have h1 := hw r
    have h2 := hv r
    apply mul_left_cancel₀ hne
    linarith
  obtain rfl : w' = v' := by
    funext r
    have h1 := hw' r
    have h2 := hv' r
    apply mul_left_cancel₀ hne'
    linarith
  rw [hZ, htol'] at hop' hcl'
  rw [hZ] at hw' hd'
  have e1 : b.Z = a.Z - (a.Z - b.Z) := by ring
  have e1' : b'.Z = a.Z - (a.Z - b'.Z) := by ring
  have h1 := step_end_le (mat := mat) (mat' := mat') (y := b'.x) hthick hx hvv hpair (sub_nonneg.2 hd'.le) hw' hop (by rw [← e1']; exact hcl')
  have h2 := step_end_le (mat := mat') (mat' := mat) (y := b.x) (fun i hi => (hthick i hi).symm) (fun i hi => (hx i hi).symm)
    (fun i hi => (hvv i hi).symm) hpair (sub_nonneg.2 hd.le) hw hop' (by rw [← e1]; exact hcl)
  linarith

end Fibermat
