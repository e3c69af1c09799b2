import Verif.Model.Element
import Verif.Spec.Element
import Verif.Props.NetMesh
import Verif.Props.Energy

/-! # C98: the element matrices of the documentation of `stiffness` -/

set_option linter.unusedSectionVars false
set_option linter.unusedSimpArgs false

namespace Fibermat
variable {σ K : Type} [Field K] [LinearOrder K] [IsStrictOrderedRing K]
open Spec

/-- The network of a single fiber has one row, the ends of the fiber. -/
theorem single_net {m : Mat K} (h : GoodMat m) {f : Fiber K} (hf : m.fibers = [f]) {periodic : Bool} {net : Net K}
    (hn : netNew m periodic = .ok net) : ∃ r, net.rows = [r] ∧ r.A = 0 ∧ r.B = 0 ∧ r.sA = f.l / 2 ∧ r.sB = -(f.l / 2) := by
  obtain ⟨k, r, hk, hA, hB, h1, h2, -, -, hu⟩ := C07_end_row h hn (i := 0) (f := f) (by simp [hf])
  have hall : ∀ (k' : ℕ) (r' : NetRow K), net.rows[k']? = some r' → k' = k := by
    intro k' r' hk'
    have := C06_labels h hn r' (List.mem_of_getElem? hk')
    simp only [hf, List.length_singleton] at this
    exact hu k' r' hk' (by push_cast; omega) (by push_cast; omega)
  have hk0 : k = 0 := by
    obtain ⟨hlt, -⟩ := List.getElem?_eq_some_iff.1 hk
    have h0 : net.rows[0]? = some net.rows[0] := List.getElem?_eq_getElem (by omega)
    exact (hall 0 _ h0).symm
  subst hk0
  refine ⟨r, ?_, by simpa using hA, by simpa using hB, h1, h2⟩
  match hrows : net.rows with
  | [] => simp [hrows] at hk
  | [q] => simp [hrows] at hk; rw [hk]
  | q :: q' :: l =>
    have := hall 1 q' (by simp [hrows])
    omega

/-- The mesh of a single fiber: two nodes joined by one beam. -/
theorem single_mesh {net : Net K} {r : NetRow K} (hr : net.rows = [r]) (hA : r.A = 0) (hB : r.B = 0) (hs : r.sB < r.sA)
    {mesh : Mesh K} (hm : meshNew net = .ok mesh) :
    mesh.rows = [⟨0, r.sB, r.xB, r.yB, r.zB, 1, 0⟩, ⟨0, r.sA, r.xA, r.yA, r.zA, 0, 1⟩] := by
  have h1 : sortNodes (rawNodes [r]) = [⟨1, 0, ⟨0, r.sB, r.xB, r.yB, r.zB⟩⟩, ⟨0, 1, ⟨0, r.sA, r.xA, r.yA, r.zA⟩⟩] := by
    simp [sortNodes, rawNodes, meshNodes, swapLabels, List.insertionSort, List.orderedInsert, fsLe, hA, hB, hs, List.range_succ]
  have h2 : meshRows [r] = [⟨0, r.sB, r.xB, r.yB, r.zB, 1, 0⟩, ⟨0, r.sA, r.xA, r.yA, r.zA, 0, 1⟩] := by
    unfold meshRows
    rw [h1]
    simp [rolled, groupBy, npUnique, roll, argsort, List.zipIdx, List.insertionSort, List.orderedInsert]
  unfold meshNew at hm
  cases hi : meshInit net with
  | error e => simp [hi, Bind.bind, Except.bind] at hm
  | ok m =>
    obtain ⟨-, hm'⟩ := meshInit_ok hi
    simp only [hi, Bind.bind, Except.bind] at hm
    cases hc : meshCheck m.frame with
    | error e => simp [hc] at hm
    | ok u =>
      simp only [hc, pure, Except.pure, Except.ok.injEq] at hm
      rw [← hm, hm', hr]
      exact h2

/-- The matrix of a mesh of two nodes and one beam. -/
theorem dense_beam (k : Coeffs K) : (⟨4, 4, beamEntries 0 1 k⟩ : Coo (Cell K)).dense = beamMatrix k.k0 k.k1 k.k2 (-k.k4) := by
  have h0 : ∀ c : Cell K, c + 0 = c := by
    intro c
    cases c <;> simp [Cell.zero_def] <;> rfl
  simp [Coo.dense, Coo.get, beamEntries, beamMatrix, List.range_succ, h0]

/-- Scaled matrix of a beam, finite tensile modulus. -/
theorem scaled_fin {f : Fiber K} (hf : Solid f) {l E : K} (hl : 0 < l) (hE : f.E = some E) :
    (beamMatrix (coeffs f l 1).k0 (coeffs f l 1).k1 (coeffs f l 1).k2 (-(coeffs f l 1).k4)).map
        (·.map (fun c => Cell.fin (4 / npPi) * c)) =
      (timoshenkoMatrix (f.G * f.b * f.h / l) (psi2 f.G E f.h l) l).map (·.map Cell.fin) := by
  have hG := hf.G
  have hb := hf.b
  have hh := hf.h
  have hE0 : 0 < E := hf.E_pos hE
  have hpi : (0 : K) < npPi := npPi_pos'
  rw [coeffs_some hf hl 1 hE]
  have h0 : 4 / npPi * stiff0 f l = f.G * f.b * f.h / l * psi2 f.G E f.h l / (1 + psi2 f.G E f.h l) := by
    have : 0 < psi2 f.G E f.h l := by unfold psi2; positivity
    rw [stiff0_doc hf hE]
    unfold psi2 sectionArea
    field_simp
    ring
  have hp : psi2 f.G E f.h l * l ^ 2 = E / f.G * (f.h * f.h) := by unfold psi2; field_simp
  simp only [timoshenkoMatrix, beamMatrix, List.map_cons, List.map_nil, Cell.neg_fin, Cell.fin_mul_fin, ← h0]
  have e1 : 4 / npPi * (stiff0 f l * l / 2 * 1) = 4 / npPi * stiff0 f l * l / 2 := by ring
  have e2 : 4 / npPi * (stiff0 f l * (l * l) / 3 + stiff0 f l * (E / f.G) * (f.h * f.h)) =
      4 / npPi * stiff0 f l * l ^ 2 * (1 / 3 + psi2 f.G E f.h l) := by
    linear_combination (- (4 / npPi * stiff0 f l)) * hp
  have e3 : 4 / npPi * -(stiff0 f l * (l * l) / 3 + stiff0 f l * (E / f.G) * (f.h * f.h) - stiff0 f l * (l * l) / 2) =
      4 / npPi * stiff0 f l * l ^ 2 * (1 / 6 - psi2 f.G E f.h l) := by
    linear_combination ((4 / npPi * stiff0 f l)) * hp
  rw [e1, e2, e3]
  simp only [mul_neg, e1]

/-- Scaled matrix of a beam, infinite tensile modulus. -/
theorem scaled_top {f : Fiber K} (hf : Solid f) {l : K} (hl : 0 < l) (hE : f.E = ⊤) :
    (beamMatrix (coeffs f l 1).k0 (coeffs f l 1).k1 (coeffs f l 1).k2 (-(coeffs f l 1).k4)).map
        (·.map (fun c => Cell.fin (4 / npPi) * c)) = shearMatrix (f.G * f.b * f.h / l) l := by
  have hG := hf.G
  have hb := hf.b
  have hh := hf.h
  have hpi : (0 : K) < npPi := npPi_pos'
  rw [coeffs_top hf hl 1 hE]
  have h0 : 4 / npPi * stiff0 f l = f.G * f.b * f.h / l := by
    rw [stiff0_eq hf hl]
    unfold transverse sectionArea
    simp only [hE]
    field_simp
  have h4 : (0 : K) < 4 / npPi := by positivity
  have i1 : (Cell.fin (4 / npPi) * Cell.pinf : Cell K) = .pinf := by
    show Cell.mul _ _ = _
    simp [Cell.mul, h4, hpi.ne']
  have i2 : (Cell.fin (4 / npPi) * -Cell.pinf : Cell K) = .ninf := by
    show Cell.mul _ (Cell.neg .pinf) = _
    simp [Cell.mul, Cell.neg, h4, hpi.ne']
  have e1 : 4 / npPi * (stiff0 f l * l / 2 * 1) = 4 / npPi * stiff0 f l * l / 2 := by ring
  simp only [shearMatrix, beamMatrix, List.map_cons, List.map_nil, Cell.neg_fin, Cell.fin_mul_fin, ← h0, i1, i2, mul_neg, e1]

/-- One fiber: the program succeeds and prints the matrix of one beam. -/
theorem C98_single (g : Rng σ K) (cos sin : K → K) (e : σ) (a : MatArgs K) (s : σ) {ε : K} (hg : UnitInterval g)
    (hcs : NearUnit cos sin ε) (hε : ε ≤ 1 / 10 ^ 6) (hseed : GoodSeed a.seed)
    (hn : a.n = 1) (hS : 0 ≤ a.size) (ha : PositiveArgs a) :
    ∃ (M : List (List (Cell K))) (st : σ), elementDemo g cos sin e a s = .ok (M, st) ∧
      (∀ E : K, a.tensile = (E : WithTop K) → M = (timoshenkoMatrix (a.shear * a.width * a.thickness / a.length)
        (psi2 a.shear E a.thickness a.length) a.length).map (·.map Cell.fin)) ∧
      (a.tensile = ⊤ → M = shearMatrix (a.shear * a.width * a.thickness / a.length) a.length) := by
  obtain ⟨r, hr⟩ := (C03_matNew_ok_iff g cos sin e a s hg hcs hε).2 ⟨hseed, Or.inr ⟨by omega, hS, ha⟩⟩
  obtain ⟨h1, h2, h3⟩ := C03_matNew_result g cos sin e a s hg hcs hε hS r hr
  have hchk : matCheck r.1.frame = .ok () := by
    unfold matNew at hr
    cases hi : matInit g cos sin e a s with
    | error x => simp [hi, Bind.bind, Except.bind] at hr
    | ok r' =>
      simp only [hi, Bind.bind, Except.bind] at hr
      cases hc : matCheck r'.1.frame with
      | error x => simp [hc] at hr
      | ok u => simp only [hc, pure, Except.pure, Except.ok.injEq] at hr; rw [← hr, hc]
  have hgood : GoodMat r.1 := ((matCheck_frame_iff _).1 hchk).resolve_left (by rw [h2]; simp [Skipped])
  obtain ⟨f, hf⟩ := List.length_eq_one_iff.1 (show r.1.fibers.length = 1 by omega)
  obtain ⟨-, -, -, -, hl, hb, hh, hG, hE⟩ := h3 f (by simp [hf])
  obtain ⟨net, hnet, -⟩ := C06_netNew_ok hgood true
  obtain ⟨q, hq, hA, hB, hsA, hsB⟩ := single_net hgood hf hnet
  obtain ⟨mesh, hmesh, hmc⟩ := C27_mesh_of_net hgood hnet
  obtain ⟨p1, p2, p3, p4, p5⟩ := ha
  have hrows := single_mesh hq hA hB (by rw [hsA, hsB, hl]; linarith) hmesh
  have hsolid : Solid f := by
    obtain ⟨S, -, hg⟩ := hgood.size
    exact GoodFiber.solid (hg f (by simp [hf]))
  have hK : stiffness r.1 mesh none none 1 = .ok ⟨4, 4, beamEntries 0 1 (coeffs f a.length 1)⟩ := by
    unfold stiffness
    simp only [hchk, hmc, Bind.bind, Except.bind]
    have hbe : beams r.1 mesh.rows = .ok [⟨0, 1, a.length, f⟩] := by
      rw [hrows]
      simp [beams, hf, List.zipIdx, hsA, hsB, hl, List.mapM_cons, pure, Except.pure, Bind.bind, Except.bind]
    rw [hbe]
    simp [rescale, npMin, npMax, interp2, hrows, pure, Except.pure, Bind.bind, Except.bind]
  refine ⟨(Coo.dense ⟨4, 4, beamEntries 0 1 (coeffs f a.length 1)⟩).map (·.map (fun c => Cell.fin (4 / npPi) * c)), r.2, ?_, ?_, ?_⟩
  · unfold elementDemo
    simp only [hr, hnet, hmesh, hK, Bind.bind, Except.bind, pure, Except.pure]
  · intro E hE'
    rw [dense_beam, scaled_fin hsolid p1 (E := E) (by rw [hE, hE']; rfl), hG, hb, hh]
  · intro hE'
    rw [dense_beam, scaled_top hsolid p1 (by rw [hE, hE']), hG, hb, hh]

/-! ## The printed matrices (`model.py:88-114`) -/

section
variable (g : Rng σ K) (cos sin : K → K) (e : σ) (a : MatArgs K) (s : σ)

/-- "Linear model": the printed matrix, whatever the random numbers. -/
theorem C98_linear {ε : K} (hg : UnitInterval g) (hcs : NearUnit cos sin ε) (hε : ε ≤ 1 / 10 ^ 6) (hseed : GoodSeed a.seed)
    (hn : a.n = 1) (hS : 0 ≤ a.size)
    (hl : a.length = 1) (hb : a.width = 1) (hh : a.thickness = 1) (hG : a.shear = 1) (hE : a.tensile = ⊤) :
    ∃ st, elementDemo g cos sin e a s = .ok
      ([[.fin 1, .fin (1 / 2), .fin (-1), .fin (1 / 2)],
        [.fin (1 / 2), .pinf, .fin (-1 / 2), .ninf],
        [.fin (-1), .fin (-1 / 2), .fin 1, .fin (-1 / 2)],
        [.fin (1 / 2), .ninf, .fin (-1 / 2), .pinf]], st) := by
  obtain ⟨M, st, h1, -, h3⟩ := C98_single g cos sin e a s hg hcs hε hseed hn hS
    ⟨by rw [hl]; norm_num, by rw [hb]; norm_num, by rw [hh]; norm_num, by rw [hG]; norm_num, by rw [hE]; exact WithTop.coe_lt_top 0⟩
  refine ⟨st, h1.trans ?_⟩
  rw [h3 hE, hl, hb, hh, hG]
  simp [shearMatrix, beamMatrix]
  norm_num

/-- "Timoshenko model": the printed matrix, whatever the random numbers. -/
theorem C98_timoshenko {ε : K} (hg : UnitInterval g) (hcs : NearUnit cos sin ε) (hε : ε ≤ 1 / 10 ^ 6) (hseed : GoodSeed a.seed)
    (hn : a.n = 1) (hS : 0 ≤ a.size) (hl : a.length = 1) (hb : a.width = 1) (hh : a.thickness = 1) (hG : a.shear = 2)
    (hE : a.tensile = ((2 : K) : WithTop K)) :
    ∃ st, elementDemo g cos sin e a s = .ok
      ([[.fin 1, .fin (1 / 2), .fin (-1), .fin (1 / 2)],
        [.fin (1 / 2), .fin (4 / 3), .fin (-1 / 2), .fin (-5 / 6)],
        [.fin (-1), .fin (-1 / 2), .fin 1, .fin (-1 / 2)],
        [.fin (1 / 2), .fin (-5 / 6), .fin (-1 / 2), .fin (4 / 3)]], st) := by
  obtain ⟨M, st, h1, h2, -⟩ := C98_single g cos sin e a s hg hcs hε hseed hn hS
    ⟨by rw [hl]; norm_num, by rw [hb]; norm_num, by rw [hh]; norm_num, by rw [hG]; norm_num,
      by rw [hE]; exact WithTop.coe_lt_coe.2 (by norm_num)⟩
  refine ⟨st, h1.trans ?_⟩
  rw [h2 2 hE, hl, hb, hh, hG]
  simp [timoshenkoMatrix, beamMatrix, psi2]
  norm_num

/-- "Euler model": the printed matrix up to `10⁻⁸`, the precision of the printed numbers, whatever the random numbers. -/
theorem C98_euler {ε : K} (hg : UnitInterval g) (hcs : NearUnit cos sin ε) (hε : ε ≤ 1 / 10 ^ 6) (hseed : GoodSeed a.seed)
    (hn : a.n = 1) (hS : 0 ≤ a.size) (hl : a.length = 1) (hb : a.width = 1) (hh : a.thickness = 1) (hG : a.shear = 10 ^ 12)
    (hE : a.tensile = ((12 : K) : WithTop K)) :
    ∃ M st, elementDemo g cos sin e a s = .ok (M, st) ∧
      List.Forall₂ (List.Forall₂ (NearEntry (1 / 10 ^ 8))) M
        [[12, 6, -12, 6], [6, 4, -6, 2], [-12, -6, 12, -6], [6, 2, -6, 4]] := by
  obtain ⟨M, st, h1, h2, -⟩ := C98_single g cos sin e a s hg hcs hε hseed hn hS
    ⟨by rw [hl]; norm_num, by rw [hb]; norm_num, by rw [hh]; norm_num, by rw [hG]; norm_num,
      by rw [hE]; exact WithTop.coe_lt_coe.2 (by norm_num)⟩
  refine ⟨M, st, h1, ?_⟩
  rw [h2 12 hE, hl, hb, hh, hG]
  simp only [timoshenkoMatrix, beamMatrix, psi2, List.map_cons, List.map_nil, List.forall₂_cons, List.Forall₂.nil, NearEntry]
  refine ⟨⟨⟨_, rfl, ?_⟩, ⟨_, rfl, ?_⟩, ⟨_, rfl, ?_⟩, ⟨_, rfl, ?_⟩, trivial⟩, ⟨⟨_, rfl, ?_⟩, ⟨_, rfl, ?_⟩, ⟨_, rfl, ?_⟩, ⟨_, rfl, ?_⟩, trivial⟩,
    ⟨⟨_, rfl, ?_⟩, ⟨_, rfl, ?_⟩, ⟨_, rfl, ?_⟩, ⟨_, rfl, ?_⟩, trivial⟩, ⟨⟨_, rfl, ?_⟩, ⟨_, rfl, ?_⟩, ⟨_, rfl, ?_⟩, ⟨_, rfl, ?_⟩, trivial⟩, trivial⟩ <;>
    rw [abs_le] <;> constructor <;> norm_num

/-- Slender fibers (`Ψ² ≪ 1`): the printed matrix is the one of an Euler-Bernoulli beam of bending stiffness `E b h³ / 12`, up to a
relative error `7 Ψ²`. -/
theorem C98_small_psi {ε E : K} (hg : UnitInterval g) (hcs : NearUnit cos sin ε) (hε : ε ≤ 1 / 10 ^ 6) (hseed : GoodSeed a.seed)
    (hn : a.n = 1) (hS : 0 ≤ a.size) (ha : PositiveArgs a) (hE : a.tensile = (E : WithTop K)) :
    ∃ M st, elementDemo g cos sin e a s = .ok (M, st) ∧
      List.Forall₂ (List.Forall₂ (fun c x => NearEntry (7 * psi2 a.shear E a.thickness a.length * |x|) c x)) M
        (eulerMatrix (E * a.width * a.thickness ^ 3 / 12) a.length) := by
  obtain ⟨M, st, h1, h2, -⟩ := C98_single g cos sin e a s hg hcs hε hseed hn hS ha
  refine ⟨M, st, h1, ?_⟩
  obtain ⟨p1, p2, p3, p4, p5⟩ := ha
  have hE0 : 0 < E := by rw [hE] at p5; exact WithTop.coe_lt_coe.1 p5
  rw [h2 E hE]
  have hpp : 0 < psi2 a.shear E a.thickness a.length := by unfold psi2; positivity
  have hk : a.shear * a.width * a.thickness / a.length * psi2 a.shear E a.thickness a.length =
      E * a.width * a.thickness ^ 3 / a.length ^ 3 := by
    unfold psi2; field_simp
  simp only [timoshenkoMatrix, hk]
  generalize psi2 a.shear E a.thickness a.length = p at hpp
  set k := E * a.width * a.thickness ^ 3 / a.length ^ 3 with hkd
  have hk0 : 0 < k := by positivity
  have e1 : 12 * (E * a.width * a.thickness ^ 3 / 12) / a.length ^ 3 = k := by rw [hkd]; ring
  have e2 : 6 * (E * a.width * a.thickness ^ 3 / 12) / a.length ^ 2 = k * a.length / 2 := by rw [hkd]; field_simp; norm_num
  have e3 : 4 * (E * a.width * a.thickness ^ 3 / 12) / a.length = k * a.length ^ 2 / 3 := by rw [hkd]; field_simp; norm_num
  have e4 : 2 * (E * a.width * a.thickness ^ 3 / 12) / a.length = k * a.length ^ 2 / 6 := by rw [hkd]; field_simp; norm_num
  unfold eulerMatrix
  rw [e1, e2, e3, e4]
  have main : ∀ (x y d : K), 0 < d → |y| ≤ 7 * p → x = d * (1 + y) → NearEntry (7 * p * |d|) (.fin x) d := by
    intro x y d hd hy hx
    refine ⟨x, rfl, ?_⟩
    rw [hx, show d * (1 + y) - d = d * y by ring, abs_mul, mul_comm]
    exact mul_le_mul_of_nonneg_right hy (abs_nonneg _)
  have flip : ∀ (x d : K), NearEntry (7 * p * |d|) (.fin x) d → NearEntry (7 * p * |-d|) (.fin (-x)) (-d) := by
    rintro x d ⟨y, hy, h⟩
    cases hy
    refine ⟨-x, rfl, ?_⟩
    rw [abs_neg, show -x - -d = -(x - d) by ring, abs_neg]
    exact h
  have q0 : 0 < 1 + p := by positivity
  have small : ∀ c : K, |c| ≤ 7 → |c * p / (1 + p)| ≤ 7 * p := by
    intro c hc
    rw [abs_div, abs_mul, abs_of_pos hpp, abs_of_pos q0]
    apply div_le_of_le_mul₀ q0.le (by positivity)
    have : 0 ≤ 7 * p * p := by positivity
    nlinarith [mul_le_mul_of_nonneg_right hc hpp.le]
  have f1 := main (k / (1 + p)) (-1 * p / (1 + p)) k hk0 (small (-1) (by norm_num)) (by field_simp; ring)
  have f2 := main (k / (1 + p) * a.length / 2) (-1 * p / (1 + p)) (k * a.length / 2) (by positivity) (small (-1) (by norm_num))
    (by field_simp; ring)
  have f3 := main (k / (1 + p) * a.length ^ 2 * (1 / 3 + p)) (2 * p / (1 + p)) (k * a.length ^ 2 / 3) (by positivity)
    (small 2 (by norm_num)) (by field_simp; ring)
  have f4 := main (k / (1 + p) * a.length ^ 2 * (1 / 6 - p)) (-7 * p / (1 + p)) (k * a.length ^ 2 / 6) (by positivity)
    (small (-7) (by norm_num)) (by field_simp; ring)
  have g1 := flip _ _ f1
  have g2 := flip _ _ f2
  simp only [beamMatrix, List.map_cons, List.map_nil, List.forall₂_cons, List.Forall₂.nil]
  exact ⟨⟨f1, f2, g1, f2, trivial⟩, ⟨f2, f3, g2, f4, trivial⟩, ⟨g1, g2, f1, g2, trivial⟩, ⟨f2, f4, g2, f3, trivial⟩, trivial⟩

/-- Stocky fibers (`Ψ² ≫ 1`): the transverse stiffness is the one of the beam that only shears, up to a relative error `1 / Ψ²`, and
the moments grow as `Ψ²` with the signs of the infinite entries. -/
theorem C98_large_psi {ε E : K} (hg : UnitInterval g) (hcs : NearUnit cos sin ε) (hε : ε ≤ 1 / 10 ^ 6) (hseed : GoodSeed a.seed)
    (hn : a.n = 1) (hS : 0 ≤ a.size) (ha : PositiveArgs a) (hE : a.tensile = (E : WithTop K)) :
    ∃ k m A B st, elementDemo g cos sin e a s = .ok ((beamMatrix k m A B).map (·.map Cell.fin), st) ∧
      |k - a.shear * a.width * a.thickness / a.length| ≤
        a.shear * a.width * a.thickness / a.length / psi2 a.shear E a.thickness a.length ∧
      |m - a.shear * a.width * a.thickness / 2| ≤ a.shear * a.width * a.thickness / 2 / psi2 a.shear E a.thickness a.length ∧
      a.shear * a.width * a.thickness * a.length * (psi2 a.shear E a.thickness a.length - 2 / 3) ≤ A ∧
      B ≤ -(a.shear * a.width * a.thickness * a.length * (psi2 a.shear E a.thickness a.length - 7 / 6)) := by
  obtain ⟨M, st, h1, h2, -⟩ := C98_single g cos sin e a s hg hcs hε hseed hn hS ha
  obtain ⟨p1, p2, p3, p4, p5⟩ := ha
  have hE0 : 0 < E := by rw [hE] at p5; exact WithTop.coe_lt_coe.1 p5
  have hpp : 0 < psi2 a.shear E a.thickness a.length := by unfold psi2; positivity
  rw [h2 E hE] at h1
  refine ⟨_, _, _, _, st, h1, ?_⟩
  generalize psi2 a.shear E a.thickness a.length = p at hpp
  have hw0 : 0 < a.shear * a.width * a.thickness := by positivity
  generalize a.shear * a.width * a.thickness = w at hw0
  generalize a.length = l at p1
  have q0 : 0 < 1 + p := by positivity
  have rel : |(p / (1 + p) - 1 : K)| ≤ 1 / p := by
    rw [show p / (1 + p) - 1 = -(1 / (1 + p)) by field_simp; ring, abs_neg, abs_of_pos (by positivity)]
    exact one_div_le_one_div_of_le hpp (by linarith)
  refine ⟨?_, ?_, ?_, ?_⟩
  · rw [show w / l * p / (1 + p) - w / l = w / l * (p / (1 + p) - 1) by ring, abs_mul, abs_of_pos (by positivity), div_eq_mul_one_div (w / l) p]
    exact mul_le_mul_of_nonneg_left rel (by positivity)
  · rw [show w / l * p / (1 + p) * l / 2 - w / 2 = w / 2 * (p / (1 + p) - 1) by field_simp, abs_mul, abs_of_pos (by positivity),
      div_eq_mul_one_div (w / 2) p]
    exact mul_le_mul_of_nonneg_left rel (by positivity)
  · rw [show w / l * p / (1 + p) * l ^ 2 * (1 / 3 + p) = w * l * (p * (1 / 3 + p) / (1 + p)) by field_simp]
    apply mul_le_mul_of_nonneg_left _ (by positivity)
    rw [le_div_iff₀ q0]
    linarith
  · rw [show w / l * p / (1 + p) * l ^ 2 * (1 / 6 - p) = w * l * (p * (1 / 6 - p) / (1 + p)) by field_simp, ← mul_neg]
    apply mul_le_mul_of_nonneg_left _ (by positivity)
    rw [div_le_iff₀ q0]
    linarith

end

/-! ## Concrete cases -/

/-- The arguments of the first example of the documentation, in a box of size 50. -/
def demoArgs : MatArgs ℚ := ⟨1, 1, 1, 1, 50, 3, 0, 1, ⊤, some 0⟩

/-- `C98_linear`: its hypotheses are met. -/
example : ∃ st, elementDemo toyRng (fun _ => 3 / 5) (fun _ => 4 / 5) 5 demoArgs 17 = .ok
    ([[.fin 1, .fin (1 / 2), .fin (-1), .fin (1 / 2)], [.fin (1 / 2), .pinf, .fin (-1 / 2), .ninf],
      [.fin (-1), .fin (-1 / 2), .fin 1, .fin (-1 / 2)], [.fin (1 / 2), .ninf, .fin (-1 / 2), .pinf]], st) :=
  C98_linear _ _ _ _ _ _ toyRng_unit near_toy (by norm_num) (by norm_num [demoArgs, GoodSeed]) rfl (by norm_num [demoArgs]) rfl rfl rfl rfl rfl

/-- `C98_timoshenko`: its hypotheses are met. -/
example := C98_timoshenko toyRng (fun _ => 3 / 5) (fun _ => 4 / 5) 5 { demoArgs with shear := 2, tensile := ((2 : ℚ) : WithTop ℚ) } 17
  toyRng_unit near_toy (by norm_num) (by norm_num [demoArgs, GoodSeed]) rfl (by norm_num [demoArgs]) rfl rfl rfl rfl rfl

/-- `C98_euler`: its hypotheses are met. -/
example := C98_euler toyRng (fun _ => 3 / 5) (fun _ => 4 / 5) 5 { demoArgs with shear := 10 ^ 12, tensile := ((12 : ℚ) : WithTop ℚ) } 17
  toyRng_unit near_toy (by norm_num) (by norm_num [demoArgs, GoodSeed]) rfl (by norm_num [demoArgs]) rfl rfl rfl rfl rfl

/-- The model computes the second printed matrix; the fiber is longer than the box. -/
example : (elementDemo toyRng (fun _ => 3 / 5) (fun _ => 4 / 5) 5
      { demoArgs with size := 1 / 2, shear := 2, tensile := ((2 : ℚ) : WithTop ℚ) } 17).map Prod.fst = .ok
    ([[.fin 1, .fin (1 / 2), .fin (-1), .fin (1 / 2)], [.fin (1 / 2), .fin (4 / 3), .fin (-1 / 2), .fin (-5 / 6)],
      [.fin (-1), .fin (-1 / 2), .fin 1, .fin (-1 / 2)], [.fin (1 / 2), .fin (-5 / 6), .fin (-1 / 2), .fin (4 / 3)]]) := by
  decide +kernel

/-- `C98_small_psi`, `C98_large_psi`: a fiber of length 20 and thickness 1 with `E = 4 G`, hence `Ψ² = 1 / 100`. -/
example : psi2 (2 : ℚ) 8 1 20 = 1 / 100 := by norm_num [psi2]

example := C98_small_psi toyRng (fun _ => 3 / 5) (fun _ => 4 / 5) 5
  { demoArgs with length := 20, shear := 2, tensile := ((8 : ℚ) : WithTop ℚ) } 17 toyRng_unit near_toy (by norm_num) (by norm_num [demoArgs, GoodSeed]) rfl
  (by norm_num [demoArgs]) ⟨by norm_num, by norm_num [demoArgs], by norm_num [demoArgs], by norm_num, WithTop.coe_lt_coe.2 (by norm_num)⟩ rfl

example := C98_large_psi toyRng (fun _ => 3 / 5) (fun _ => 4 / 5) 5
  { demoArgs with length := 20, shear := 2, tensile := ((8 : ℚ) : WithTop ℚ) } 17 toyRng_unit near_toy (by norm_num) (by norm_num [demoArgs, GoodSeed]) rfl
  (by norm_num [demoArgs]) ⟨by norm_num, by norm_num [demoArgs], by norm_num [demoArgs], by norm_num, WithTop.coe_lt_coe.2 (by norm_num)⟩ rfl

end Fibermat
