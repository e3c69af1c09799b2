import Verif.Spec.RoundedAssembly
import Verif.Lemmas.Rounded
import Verif.Lemmas.RoundedExact
import Verif.Lemmas.SolverAssembly

/-! # The system assembled with rounded arithmetic -/

set_option linter.unusedSectionVars false

namespace Fibermat
open Spec
variable {K : Type} [Field K] [LinearOrder K] [IsStrictOrderedRing K]

/-! ## Kinds of cells -/

/-- A cell without its number. -/
def Cell.kind : Cell K → Cell K
  | .fin _ => .fin 0
  | c => c

theorem Cell.kind_add (a b : Cell K) : (a + b).kind = a.kind + b.kind := by
  change (Cell.add a b).kind = Cell.add a.kind b.kind
  cases a <;> cases b <;> simp [Cell.add, Cell.kind]

theorem Cell.kind_neg (a : Cell K) : (-a).kind = -a.kind := by
  change (Cell.neg a).kind = Cell.neg a.kind
  cases a <;> simp [Cell.neg, Cell.kind]

theorem Cell.kind_round (fl : K → K) (a : Cell K) : (a.round fl).kind = a.kind := by
  cases a <;> rfl

theorem Cell.kind_fin {a : Cell K} : a.kind = .fin 0 ↔ ∃ m, a = .fin m := by
  cases a <;> simp [Cell.kind]

theorem Cell.kind_pinf {a : Cell K} : a.kind = .pinf ↔ a = .pinf := by
  cases a <;> simp [Cell.kind]

theorem kind_sum (l : List (Cell K)) : l.sum.kind = (l.map Cell.kind).sum := by
  induction l with
  | nil => rfl
  | cons a l ih => rw [List.sum_cons, Cell.kind_add, ih, List.map_cons, List.sum_cons]

theorem kind_foldl (fl : K → K) (l : List (Cell K)) (z : Cell K) :
    (l.foldl (fun acc e => (acc + e).round fl) z).kind = z.kind + (l.map Cell.kind).sum := by
  induction l generalizing z with
  | nil => exact (add_zero _).symm
  | cons a l ih => rw [List.foldl_cons, ih, Cell.kind_round, Cell.kind_add, List.map_cons, List.sum_cons, add_assoc]

/-- A triplet without its number. -/
def entryKind (e : Nat × Nat × Cell K) : Nat × Nat × Cell K := (e.1, e.2.1, e.2.2.kind)

theorem filter_entryKind (es : List (Nat × Nat × Cell K)) (r c : ℕ) :
    ((es.filter (fun e => e.1 = r ∧ e.2.1 = c)).map (fun e => e.2.2)).map Cell.kind =
      ((es.map entryKind).filter (fun e => e.1 = r ∧ e.2.1 = c)).map (fun e => e.2.2) := by
  rw [List.filter_map, List.map_map, List.map_map]
  rfl

/-- Entries of the same kinds give matrices of the same kinds. -/
theorem getR_kind {fl : K → K} {M N : Coo (Cell K)} (h : M.entries.map entryKind = N.entries.map entryKind) (r c : ℕ) :
    (N.getR fl r c).kind = (M.get r c).kind := by
  unfold Coo.getR Coo.get
  rw [kind_foldl, kind_sum, filter_entryKind, filter_entryKind, h]
  exact zero_add _

theorem beamEntries_kind (i j : ℕ) {k k' : Coeffs K} (h0 : k.k0.kind = k'.k0.kind) (h1 : k.k1.kind = k'.k1.kind)
    (h2 : k.k2.kind = k'.k2.kind) (h4 : k.k4.kind = k'.k4.kind) :
    (beamEntries i j k).map entryKind = (beamEntries i j k').map entryKind := by
  simp only [beamEntries, List.map_cons, List.map_nil, entryKind, Cell.kind_neg, h0, h1, h2, h4]

/-! ## Stiffness -/

section
variable {fl : K → K} {u : K}

theorem Spec.Rounds.u_nonneg (h : Rounds fl u) : 0 ≤ u := by
  have := h.err 1
  rw [abs_one, mul_one] at this
  exact (abs_nonneg _).trans this

theorem Spec.Rounds.pos (h : Rounds fl u) (hu : u < 1) {a : K} (ha : 0 < a) : 0 < fl a := by
  have h1 := (abs_le.1 (h.err a)).1
  rw [abs_of_pos ha] at h1
  have : 0 < (1 - u) * a := mul_pos (by linarith) ha
  linarith

theorem coeffsR_kind (hr : Rounds fl u) (hu : u < 1) {f : Fiber K} (hf : Solid f) {l : K} (hl : 0 < l) (c : K) :
    (coeffsR fl f l c).k0.kind = .fin 0 ∧ (coeffsR fl f l c).k1.kind = .fin 0 ∧
      ((f.E ≠ ⊤ ∧ (coeffsR fl f l c).k2.kind = .fin 0 ∧ (coeffsR fl f l c).k4.kind = .fin 0) ∨
       (f.E = ⊤ ∧ (coeffsR fl f l c).k2.kind = .pinf ∧ (coeffsR fl f l c).k4.kind = .pinf)) := by
  have hG := hf.G; have hh := hf.h; have hb := hf.b
  have P := fun {a : K} (ha : 0 < a) => hr.pos hu ha
  have h2 : (2 : K) ≠ 0 := by norm_num
  have h3 : (3 : K) ≠ 0 := by norm_num
  have hv : 0 < fl (fl (npPi / 4) * fl (fl (f.G * f.b) * f.h)) := by
    have hpi : (0 : K) < npPi / 4 := div_pos npPi_pos (by norm_num)
    exact P (mul_pos (P hpi) (P (mul_pos (P (mul_pos hG hb)) hh)))
  rcases hE : f.E with _ | e
  · have hd : 0 < fl (1 + fl (fl 0 * fl (fl (l / f.h) * fl (l / f.h)))) := by
      rw [hr.zero, zero_mul, hr.zero, add_zero]
      exact P one_pos
    have hk : 0 < fl (fl (fl (fl (npPi / 4) * fl (fl (f.G * f.b) * f.h)) / l) / fl (1 + fl (fl 0 * fl (fl (l / f.h) * fl (l / f.h))))) :=
      P (div_pos (P (div_pos hv hl)) hd)
    have e1 : (Cell.fin f.G / Cell.pinf : Cell K) = Cell.fin 0 := rfl
    have e2 : (Cell.pinf / Cell.fin f.G : Cell K) = Cell.pinf := by
      change Cell.div _ _ = _; simp [Cell.div, hG.le]
    have e3 : ∀ a : K, 0 < a → (Cell.fin a * Cell.pinf : Cell K) = Cell.pinf := by
      intro a ha; change Cell.mul _ _ = _; simp [Cell.mul, ha, ha.ne']
    have e4 : ∀ a : K, 0 < a → (Cell.pinf * Cell.fin a : Cell K) = Cell.pinf := by
      intro a ha; change Cell.mul _ _ = _; simp [Cell.mul, ha, ha.ne']
    have hh2 : 0 < fl (f.h * f.h) := P (mul_pos hh hh)
    simp only [coeffsR, topCell, hE, Cell.fin_div_fin hl.ne', Cell.fin_div_fin hh.ne', e1, e2, Cell.round, Cell.fin_mul_fin,
      Cell.fin_add_fin, Cell.fin_div_fin hd.ne', Cell.fin_div_fin h2, Cell.fin_div_fin h3, e3 _ hk, e4 _ hh2]
    refine ⟨rfl, rfl, Or.inr ⟨rfl, rfl, rfl⟩⟩
  · have hE' : 0 < e := by have := hf.E; rw [hE] at this; exact WithTop.coe_lt_coe.1 this
    have hd : 0 < fl (1 + fl (fl (f.G / e) * fl (fl (l / f.h) * fl (l / f.h)))) := by
      have := P (mul_pos (P (div_pos hG hE')) (P (mul_pos (P (div_pos hl hh)) (P (div_pos hl hh)))))
      exact P (by linarith)
    simp only [coeffsR, topCell, hE, Cell.fin_div_fin hl.ne', Cell.fin_div_fin hh.ne', Cell.fin_div_fin hG.ne',
      Cell.fin_div_fin hE'.ne', Cell.round, Cell.fin_mul_fin, Cell.fin_sub_fin,
      Cell.fin_add_fin, Cell.fin_div_fin hd.ne', Cell.fin_div_fin h2, Cell.fin_div_fin h3]
    refine ⟨rfl, rfl, Or.inl ⟨WithTop.coe_ne_top, rfl, rfl⟩⟩

theorem exact_rounds : Rounds (id : K → K) 0 := ⟨fun _ _ h => h, fun _ => rfl, fun a => by simp⟩

theorem coeffsR_id (f : Fiber K) (l c : K) : coeffsR id f l c = coeffs f l c := by
  have e : Cell.round (id : K → K) = id := funext Cell.round_id
  simp only [coeffsR, coeffs, e, id_eq]

theorem coeffs_kind {f : Fiber K} (hr : Rounds fl u) (hu : u < 1) (hf : Solid f) {l l' : K} (hl : 0 < l) (hl' : 0 < l') (c : K)
    (i j : ℕ) : (beamEntries i j (coeffs f l c)).map entryKind = (beamEntries i j (coeffsR fl f l' c)).map entryKind := by
  obtain ⟨a0, a1, a2⟩ := coeffsR_kind exact_rounds one_pos hf hl c
  obtain ⟨b0, b1, b2⟩ := coeffsR_kind hr hu hf hl' c
  rw [coeffsR_id] at a0 a1 a2
  rcases a2 with ⟨e, a2, a4⟩ | ⟨e, a2, a4⟩ <;> rcases b2 with ⟨e', b2, b4⟩ | ⟨e', b2, b4⟩
  · exact beamEntries_kind i j (a0.trans b0.symm) (a1.trans b1.symm) (a2.trans b2.symm) (a4.trans b4.symm)
  · exact absurd e' e
  · exact absurd e e'
  · exact beamEntries_kind i j (a0.trans b0.symm) (a1.trans b1.symm) (a2.trans b2.symm) (a4.trans b4.symm)

theorem entries_kind (hr : Rounds fl u) (hu : u < 1) (c : K) :
    ∀ (bs : List (Beam K)) (ls ls' : List K), ls.length = bs.length → ls'.length = bs.length → (∀ b ∈ bs, Solid b.fiber) →
      (∀ x ∈ ls, 0 < x) → (∀ x ∈ ls', 0 < x) →
      ((bs.zip ls).flatMap (fun p => beamEntries p.1.i p.1.j (coeffs p.1.fiber p.2 c))).map entryKind =
      ((bs.zip ls').flatMap (fun p => beamEntries p.1.i p.1.j (coeffsR fl p.1.fiber p.2 c))).map entryKind := by
  intro bs
  induction bs with
  | nil => intros; rfl
  | cons b bs ih =>
    intro ls ls' h1 h2 hs hp hp'
    cases ls with
    | nil => simp at h1
    | cons l ls =>
      cases ls' with
      | nil => simp at h2
      | cons l' ls' =>
        simp only [List.zip_cons_cons, List.flatMap_cons, List.map_append]
        rw [coeffs_kind hr hu (hs b (by simp)) (hp l (by simp)) (hp' l' (by simp)),
          ih ls ls' (by simpa using h1) (by simpa using h2) (fun x hx => hs x (List.mem_cons_of_mem _ hx))
            (fun x hx => hp x (List.mem_cons_of_mem _ hx)) (fun x hx => hp' x (List.mem_cons_of_mem _ hx))]

theorem rescaleR_eq {lmin lmax : Option K} {ls : List K} (hne : ls ≠ []) :
    ∃ a b, npMin ls = .ok a ∧ npMax ls = .ok b ∧ rescaleR fl lmin lmax ls =
      .ok (ls.map (interp2R fl (min a (lmin.getD a)) (max b (lmax.getD b)) (lmin.getD a) (lmax.getD b))) := by
  obtain ⟨a, ha⟩ := npMin_ok hne
  obtain ⟨b, hb⟩ := npMax_ok hne
  refine ⟨a, b, ha, hb, ?_⟩
  cases lmin <;> cases lmax <;> simp only [rescaleR, ha, hb] <;> rfl

theorem interp2R_pos (hr : Rounds fl u) (hu : u < 1) {x0 x1 y0 y1 t : K} (h0 : x0 ≤ t) (hy : 0 < y0) (hy' : y0 ≤ y1) :
    0 < interp2R fl x0 x1 y0 y1 t := by
  unfold interp2R
  split_ifs with h1 h2
  · linarith
  · exact hy
  · push Not at h1
    have a1 : 0 ≤ fl (y1 - y0) := hr.nonneg (by linarith)
    have a2 : 0 ≤ fl (x1 - x0) := hr.nonneg (by linarith)
    have a3 : 0 ≤ fl (t - x0) := hr.nonneg (by linarith)
    have a4 := hr.nonneg (mul_nonneg (hr.nonneg (div_nonneg a1 a2)) a3)
    exact hr.pos hu (by linarith)

theorem interp2R_id (x0 x1 y0 y1 t : K) : interp2R id x0 x1 y0 y1 t = interp2 x0 x1 y0 y1 t := rfl

/-- Rounded lengths stay positive. -/
theorem rescaleR_pos (hr : Rounds fl u) (hu : u < 1) {mat : Mat K} {rows : List (MeshRow K)} {lmin lmax : Option K}
    {bs : List (Beam K)} (hp : PositiveLengths rows lmin lmax) (ho : OrderedLengths fl rows lmin lmax)
    (hb : beams mat rows = .ok bs) (hne : bs ≠ []) :
    ∃ ls', rescaleR fl lmin lmax (bs.map (fun b => fl b.l)) = .ok ls' ∧ ls'.length = bs.length ∧ ∀ x ∈ ls', 0 < x := by
  obtain ⟨a, b, ha, hb', e⟩ := rescaleR_eq (fl := fl) (lmin := lmin) (lmax := lmax) (ls := bs.map (fun b => fl b.l)) (by simpa using hne)
  refine ⟨_, e, by simp, ?_⟩
  obtain ⟨ha1, ha2⟩ := npMin_le ha
  obtain ⟨hb1, hb2⟩ := npMax_ge hb'
  have hlen : ∀ q ∈ bs, StartsBeam rows q.i ∧ beamLength rows q.i = q.l := by
    intro q hq
    obtain ⟨hlt, r, p, hr, hp', hj, hl, -, -⟩ := (beams_spec hb).1 q hq
    exact ⟨⟨r, hr, by omega⟩, by simp [beamLength, abscissa, succNode, hr, hj, hp', hl]⟩
  have hall : ∀ i, StartsBeam rows i → ∃ q ∈ bs, q.l = beamLength rows i := by
    intro i hi
    obtain ⟨q, hq, rfl⟩ := (beams_spec hb).2.1 i hi
    exact ⟨q, hq, (hlen q hq).2.symm⟩
  obtain ⟨q0, hq0⟩ := List.exists_mem_of_ne_nil _ hne
  have hex : ∃ i, StartsBeam rows i := ⟨_, (hlen q0 hq0).1⟩
  have hlo : 0 < lmin.getD a := by
    cases h : lmin with
    | some c => exact hp.lo c h
    | none =>
      obtain ⟨q, hq, rfl⟩ := List.mem_map.1 ha1
      obtain ⟨h1, h2⟩ := hlen q hq
      have := hp.raw h q.i h1
      rw [h2] at this
      exact hr.pos hu this
  have hle : lmin.getD a ≤ lmax.getD b := by
    cases h : lmin with
    | some c =>
      cases h' : lmax with
      | some d => exact ho.both c d h h'
      | none =>
        obtain ⟨hc, h1⟩ := ho.lo c h h'
        obtain ⟨i, hi, hle⟩ := h1 hex
        obtain ⟨q, hq, e⟩ := hall i hi
        rw [← e] at hle
        have h2 := hr.mono _ _ hle
        rw [hc] at h2
        exact h2.trans (hb2 _ (List.mem_map_of_mem (f := fun b : Beam K => fl b.l) hq))
    | none =>
      cases h' : lmax with
      | some d =>
        obtain ⟨hc, h1⟩ := ho.hi d h h'
        obtain ⟨i, hi, hle⟩ := h1 hex
        obtain ⟨q, hq, e⟩ := hall i hi
        rw [← e] at hle
        have h2 := hr.mono _ _ hle
        rw [hc] at h2
        exact (ha2 _ (List.mem_map_of_mem (f := fun b : Beam K => fl b.l) hq)).trans h2
      | none => exact ha2 b hb1
  intro x hx
  obtain ⟨t, ht, rfl⟩ := List.mem_map.1 hx
  exact interp2R_pos hr hu ((min_le_left _ _).trans (ha2 t ht)) hlo hle


/-! ## Constraints -/

/-- Errors of the bounds of a contact. -/
theorem half_err (hr : Rounds fl u) {h B : K} (h0 : 0 ≤ h) (hB : h ≤ B) : |fl (h / 2) - h / 2| ≤ u * (B / 2) := by
  have := hr.err (h / 2)
  rw [abs_of_nonneg (show 0 ≤ h / 2 by linarith)] at this
  exact this.trans (mul_le_mul_of_nonneg_left (by linarith) hr.u_nonneg)

theorem top_err (hr : Rounds fl u) (hu : u ≤ 1 / 1000) {z h Z ε : K} (he : 0 ≤ ε) (hZ : 20 * ε ≤ Z) (h0 : 0 ≤ h) (hf : h / 2 - ε ≤ z)
    (ht : z + h / 2 ≤ Z) : |fl (z + fl (h / 2)) - (z + h / 2)| ≤ 2 * u * Z := by
  have hu0 := hr.u_nonneg
  have hZ0 : 0 ≤ Z := by linarith
  have uZ : 0 ≤ u * Z := mul_nonneg hu0 hZ0
  have uZ' : u * Z ≤ 1 / 1000 * Z := mul_le_mul_of_nonneg_right hu hZ0
  have h1 := abs_le.1 (half_err hr h0 (B := 21 / 20 * Z) (by linarith))
  have h2 := hr.err (z + fl (h / 2))
  have h3 : |z + fl (h / 2)| ≤ 11 / 10 * Z := abs_le.2 ⟨by linarith, by linarith⟩
  have h4 := abs_le.1 (h2.trans (mul_le_mul_of_nonneg_left h3 hu0))
  rw [abs_le]
  constructor <;> linarith

theorem floor_err (hr : Rounds fl u) (hu : u ≤ 1 / 1000) {z h Z ε : K} (he : 0 ≤ ε) (hZ : 20 * ε ≤ Z) (h0 : 0 ≤ h) (hf : h / 2 - ε ≤ z)
    (ht : z + h / 2 ≤ Z) : |fl (z - fl (h / 2)) - (z - h / 2)| ≤ 6 * u * Z := by
  have hu0 := hr.u_nonneg
  have hZ0 : 0 ≤ Z := by linarith
  have uZ : 0 ≤ u * Z := mul_nonneg hu0 hZ0
  have uZ' : u * Z ≤ 1 / 1000 * Z := mul_le_mul_of_nonneg_right hu hZ0
  have h1 := abs_le.1 (half_err hr h0 (B := 21 / 20 * Z) (by linarith))
  have h2 := hr.err (z - fl (h / 2))
  have h3 : |z - fl (h / 2)| ≤ 2 * Z := abs_le.2 ⟨by linarith, by linarith⟩
  have h4 := abs_le.1 (h2.trans (mul_le_mul_of_nonneg_left h3 hu0))
  rw [abs_le]
  constructor <;> linarith

theorem pair_err (hr : Rounds fl u) (hu : u ≤ 1 / 1000) {z h z' h' Z ε : K} (he : 0 ≤ ε) (hZ : 20 * ε ≤ Z) (h0 : 0 ≤ h)
    (h0' : 0 ≤ h') (hf : h / 2 - ε ≤ z) (ht : z + h / 2 ≤ Z) (hf' : h' / 2 - ε ≤ z') (ht' : z' + h' / 2 ≤ Z) :
    |fl (fl (z' - z) - fl (fl (h + h') / 2)) - (z' - z - (h + h') / 2)| ≤ 6 * u * Z := by
  have hu0 := hr.u_nonneg
  have hZ0 : 0 ≤ Z := by linarith
  have uZ : 0 ≤ u * Z := mul_nonneg hu0 hZ0
  have uZ' : u * Z ≤ 1 / 1000 * Z := mul_le_mul_of_nonneg_right hu hZ0
  have a1 : |z' - z| ≤ 21 / 20 * Z := abs_le.2 ⟨by linarith, by linarith⟩
  have a2 := abs_le.1 ((hr.err (z' - z)).trans (mul_le_mul_of_nonneg_left a1 hu0))
  have b1 : |h + h'| ≤ 21 / 10 * Z := abs_le.2 ⟨by linarith, by linarith⟩
  have b2 := abs_le.1 ((hr.err (h + h')).trans (mul_le_mul_of_nonneg_left b1 hu0))
  have b3 := abs_le.1 (half_err hr (hr.nonneg (add_nonneg h0 h0')) (B := 22 / 10 * Z) (by linarith))
  have c1 : |fl (z' - z) - fl (fl (h + h') / 2)| ≤ 22 / 10 * Z := abs_le.2 ⟨by linarith, by linarith⟩
  have c2 := abs_le.1 ((hr.err _).trans (mul_le_mul_of_nonneg_left c1 hu0))
  rw [abs_le]
  constructor <;> linarith

theorem roof_err (hr : Rounds fl u) (hu : u ≤ 1 / 1000) {z h Z Z' ε : K} (he : 0 ≤ ε) (hZ : 20 * ε ≤ Z) (h0 : 0 ≤ h)
    (hf : h / 2 - ε ≤ z) (ht : z + h / 2 ≤ Z) (hZZ : |Z' - Z| ≤ 2 * u * Z) :
    |fl (fl (Z' - z) - fl (h / 2)) - (Z - z - h / 2)| ≤ 6 * u * Z := by
  have hu0 := hr.u_nonneg
  have hZ0 : 0 ≤ Z := by linarith
  have uZ : 0 ≤ u * Z := mul_nonneg hu0 hZ0
  have uZ' : u * Z ≤ 1 / 1000 * Z := mul_le_mul_of_nonneg_right hu hZ0
  have d := abs_le.1 hZZ
  have a1 : |Z' - z| ≤ 11 / 10 * Z := abs_le.2 ⟨by linarith, by linarith⟩
  have a2 := abs_le.1 ((hr.err (Z' - z)).trans (mul_le_mul_of_nonneg_left a1 hu0))
  have b3 := abs_le.1 (half_err hr h0 (B := 21 / 20 * Z) (by linarith))
  have c1 : |fl (Z' - z) - fl (h / 2)| ≤ 17 / 10 * Z := abs_le.2 ⟨by linarith, by linarith⟩
  have c2 := abs_le.1 ((hr.err _).trans (mul_le_mul_of_nonneg_left c1 hu0))
  rw [abs_le]
  constructor <;> linarith

/-- Maxima of close lists are close. -/
theorem npMax_near {α : Type} {l : List α} {f g : α → K} {Z e : K} (hZ : npMax (l.map f) = .ok Z) (h : ∀ x ∈ l, |g x - f x| ≤ e) :
    ∃ Z', npMax (l.map g) = .ok Z' ∧ |Z' - Z| ≤ e ∧ ∃ x ∈ l, Z' = g x := by
  have hne : l.map g ≠ [] := by
    intro h0
    rw [List.map_eq_nil_iff] at h0
    subst h0
    cases hZ
  obtain ⟨Z', hZ'⟩ := npMax_ok hne
  obtain ⟨m1, t1⟩ := npMax_ge hZ
  obtain ⟨m2, t2⟩ := npMax_ge hZ'
  obtain ⟨x, hx, rfl⟩ := List.mem_map.1 m1
  obtain ⟨y, hy, rfl⟩ := List.mem_map.1 m2
  refine ⟨_, hZ', ?_, y, hy, rfl⟩
  have a1 := t1 _ (List.mem_map_of_mem (f := f) hy)
  have a2 := t2 _ (List.mem_map_of_mem (f := g) hx)
  have b1 := abs_le.1 (h x hx)
  have b2 := abs_le.1 (h y hy)
  rw [abs_le]
  constructor <;> linarith

end

end Fibermat
