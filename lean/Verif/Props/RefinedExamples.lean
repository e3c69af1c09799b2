import Verif.Props.Refined

/-! # Examples for finer and finer meshes (C142) -/

namespace Fibermat
open Spec Real

/-- A single fiber of length 10. -/
def lineMat : Mat ℚ :=
  { fibers := [⟨10, 1, 1, 0, 0, 1 / 2, 1, 0, 0, 1, ((2 : ℚ) : WithTop ℚ)⟩]
    attrs := { n := some 1, size := some 20, periodic := some true } }

/-- Node `i` of the fiber cut in `n` equal beams. -/
def lineRow (n i : ℕ) : MeshRow ℚ :=
  ⟨0, -5 + 10 * i / n, -5 + 10 * i / n, 0, 1 / 2, if i = n then 0 else i + 1, i⟩

/-- The fiber cut in `n` equal beams. -/
def lineMesh (n : ℕ) : Mesh ℚ :=
  { rows := (List.range (n + 1)).map (lineRow n)
    attrs := { n := some 1, size := some 20, periodic := some true }
    h := none }

theorem lineMat_good : GoodMat lineMat :=
  ((matCheck_frame_iff _).1 (by decide +kernel)).resolve_left (by simp [Skipped, lineMat])

theorem lineMesh_get {n i : ℕ} {r : MeshRow ℚ} : (lineMesh n).rows[i]? = some r ↔ i ≤ n ∧ r = lineRow n i := by
  simp only [lineMesh, List.getElem?_map, Option.map_eq_some_iff, List.getElem?_eq_some_iff, List.length_range, List.getElem_range]
  constructor
  · rintro ⟨a, ⟨h, rfl⟩, rfl⟩
    exact ⟨by omega, rfl⟩
  · rintro ⟨h, rfl⟩
    exact ⟨i, ⟨by omega, rfl⟩, rfl⟩

theorem lineMesh_last {n i : ℕ} (hi : i ≤ n) : LastOnFiber (lineMesh n).rows i ↔ i = n := by
  constructor
  · rintro ⟨r, hr, h⟩
    by_contra hne
    obtain ⟨-, rfl⟩ := lineMesh_get.1 hr
    exact h (i + 1) (lineRow n (i + 1)) (by omega) (lineMesh_get.2 ⟨by omega, rfl⟩) rfl
  · rintro rfl
    refine ⟨lineRow i i, lineMesh_get.2 ⟨le_rfl, rfl⟩, ?_⟩
    intro j p hj hp
    have := (lineMesh_get.1 hp).1
    omega

theorem lineMesh_valid {n : ℕ} (hn : 0 < n) : ValidMesh (lineMesh n).frame := by
  have hn' : (0 : ℚ) < n := by exact_mod_cast hn
  refine ⟨by simp [HasColumns, meshCols, Mesh.frame, meshColumns], by simp [Mesh.frame, lineMesh]; exact ⟨⟨_, rfl⟩, ⟨_, rfl⟩, ⟨_, rfl⟩⟩, labels_meshFrame _, rfl, rfl, ?_, ?_, ?_,
    ?_, ?_⟩
  · rintro ⟨q, r⟩ hr m hm
    have hm' : m = 1 := by simpa [Mesh.frame, lineMesh] using hm.symm
    have hr' : r ∈ (lineMesh n).rows := by
      rw [← rows_meshFrame (lineMesh n)]; exact List.mem_map.2 ⟨_, hr, rfl⟩
    obtain ⟨i, hi⟩ := List.mem_iff_getElem?.1 hr'
    obtain ⟨-, rfl⟩ := lineMesh_get.1 hi
    subst hm'
    simp [lineRow]
  · rw [rows_meshFrame]
    unfold NodesSorted lineMesh
    rw [List.pairwise_map]
    refine List.pairwise_lt_range.imp ?_
    intro a b hab
    refine Or.inr ⟨rfl, ?_⟩
    have : (a : ℚ) ≤ b := by exact_mod_cast hab.le
    simp only [lineRow]
    gcongr
  · rw [rows_meshFrame]
    intro i r hr
    obtain ⟨hi, rfl⟩ := lineMesh_get.1 hr
    by_cases h : i = n
    · subst h
      refine ⟨0, by simp [lineRow], lineRow i i, lineRow i 0, hr, lineMesh_get.2 ⟨by omega, rfl⟩, rfl, Or.inr ⟨(lineMesh_last le_rfl).2 rfl, ?_⟩⟩
      exact ⟨lineRow i 0, lineMesh_get.2 ⟨by omega, rfl⟩, fun j p hj => absurd hj (by omega)⟩
    · exact ⟨i + 1, by simp [lineRow, h], lineRow n i, lineRow n (i + 1), hr, lineMesh_get.2 ⟨by omega, rfl⟩, rfl,
        Or.inl ⟨fun hl => h ((lineMesh_last hi).1 hl), rfl⟩⟩
  · rw [rows_meshFrame]
    intro i r hr
    obtain ⟨hi, rfl⟩ := lineMesh_get.1 hr
    exact ⟨i, lineRow n i, rfl, hr, rfl⟩
  · rw [rows_meshFrame]
    intro i r hr _
    obtain ⟨hi, rfl⟩ := lineMesh_get.1 hr
    rfl

theorem lineMesh_nodes {n i : ℕ} : i ∈ nodesOf (lineMesh n).rows (0 : ℕ) ↔ i ≤ n := by
  rw [mem_nodesOf]
  constructor
  · rintro ⟨r, hr, -⟩; exact (lineMesh_get.1 hr).1
  · intro h; exact ⟨lineRow n i, lineMesh_get.2 ⟨h, rfl⟩, rfl⟩

theorem lineMesh_abscissa {n i : ℕ} (hi : i ≤ n) : abscissa (lineMesh n).rows i = -5 + 10 * i / n := by
  simp [abscissa, lineMesh_get.2 ⟨hi, rfl⟩, lineRow]

theorem lineMesh_length {n i : ℕ} (hn : 0 < n) (h : StartsBeam (lineMesh n).rows i) : beamLength (lineMesh n).rows i = 10 / n := by
  obtain ⟨r, hr, hb⟩ := h
  obtain ⟨hi, rfl⟩ := lineMesh_get.1 hr
  have hne : i ≠ n := by rintro rfl; simp [lineRow] at hb; omega
  have hs : succNode (lineMesh n).rows i = i + 1 := by
    simp only [succNode, hr, lineRow, hne, if_false, Option.map_some, Option.getD_some]; omega
  have hn' : (n : ℚ) ≠ 0 := by exact_mod_cast hn.ne'
  rw [beamLength, hs, lineMesh_abscissa hi, lineMesh_abscissa (by omega)]
  push_cast
  field_simp
  ring

/-- The fiber of `lineMat`. -/
def lineFiber : Fiber ℚ := ⟨10, 1, 1, 0, 0, 1 / 2, 1, 0, 0, 1, ((2 : ℚ) : WithTop ℚ)⟩

theorem line_smooth : Smooth (fun _ => 0) (fun s => s) (fun _ => 0) (fun _ => 1) :=
  ⟨fun s => hasDerivAt_const s 0, fun s => hasDerivAt_id s, continuous_const, continuous_const⟩

theorem line_case {n : ℕ} (hn : 0 < n) : ∃ (Km : Coo (Cell ℚ)) (M : ℕ → ℕ → ℚ) (u : ℕ → ℚ),
    stiffness lineMat (lineMesh n) none none (1 : ℚ) = .ok Km ∧ Entries Km M ∧ (∀ i ≤ n, u (2 * i) = 0 ∧ u (2 * i + 1) = -5 + 10 * i / n) ∧
    PositiveLengths (lineMesh n).rows none none ∧ SpansFiber (lineMesh n).rows 0 lineFiber.l ∧
    Sampled (Rat.castHom ℝ) (lineMesh n).rows 0 (fun _ => 0) (fun s => s) u ∧
    ∀ d : ℝ, 0 < d → 10 / d < n → ∀ i ∈ beamsOf (lineMesh n).rows (0 : ℕ), Rat.castHom ℝ (beamLength (lineMesh n).rows i) ≤ d := by
  have hn' : (0 : ℚ) < n := by exact_mod_cast hn
  have hv := lineMesh_valid hn
  have hst : StartsBeam (lineMesh n).rows 0 := ⟨lineRow n 0, lineMesh_get.2 ⟨by omega, rfl⟩, by simp [lineRow, hn.ne]⟩
  obtain ⟨Km, hK⟩ := C35_stiffness_total none none (1 : ℚ) lineMat_good hv (by
    intro r hr
    obtain ⟨i, hi⟩ := List.mem_iff_getElem?.1 hr
    obtain ⟨-, rfl⟩ := lineMesh_get.1 hi
    simp [lineRow, lineMat]) ⟨0, hst⟩
  have hp : PositiveLengths (lineMesh n).rows none none := positiveLengths_raw (fun i hi => by
    rw [lineMesh_length hn hi]; positivity)
  obtain ⟨-, ⟨L, hL⟩, -⟩ := C65_lengths hK
  have hE := C65_entries hK lineMat_good (by intro f hf; simp [lineMat] at hf; subst hf; simp) hp hL
  let u : ℕ → ℚ := fun r => if r % 2 = 1 ∧ r / 2 ≤ n then -5 + 10 * ((r / 2 : ℕ) : ℚ) / n else 0
  have u0 : ∀ i, u (2 * i) = 0 := fun i => by simp [u]
  have u1 : ∀ i, u (2 * i + 1) = if i ≤ n then -5 + 10 * (i : ℚ) / n else 0 := fun i => by
    have h1 : (2 * i + 1) % 2 = 1 := by omega
    have h2 : (2 * i + 1) / 2 = i := by omega
    simp only [u, h1, h2, true_and]
  refine ⟨Km, _, u, hK, hE, fun i hi => ⟨u0 i, by rw [u1, if_pos hi]⟩, hp, ?_, ?_, ?_⟩
  · refine ⟨⟨0, lineMesh_nodes.2 (by omega), ?_⟩, ⟨n, lineMesh_nodes.2 le_rfl, ?_⟩, ?_⟩
    · rw [lineMesh_abscissa (by omega)]; norm_num [lineFiber]
    · rw [lineMesh_abscissa le_rfl]; simp only [lineFiber]; field_simp; norm_num
    · intro i hi
      have hi := lineMesh_nodes.1 hi
      have : (i : ℚ) ≤ n := by exact_mod_cast hi
      rw [lineMesh_abscissa hi, abs_le]
      have h1 : 0 ≤ 10 * (i : ℚ) / n := by positivity
      have h2 : 10 * (i : ℚ) / n ≤ 10 := by rw [div_le_iff₀ hn']; linarith
      constructor <;> norm_num [lineFiber] <;> linarith
  · intro i
    constructor
    · intro hi
      have hi := lineMesh_nodes.1 hi
      rw [u0, u1, if_pos hi, lineMesh_abscissa hi]
      simp
    · intro hi
      have hi : ¬ i ≤ n := fun h => hi (lineMesh_nodes.2 h)
      rw [u0, u1, if_neg hi]
      simp
  · intro d d0 hd i hi
    rw [lineMesh_length hn (mem_beamsOf_iff.1 hi).2]
    have h3 : (0 : ℝ) < n := by exact_mod_cast hn
    simp only [eq_ratCast, Rat.cast_div, Rat.cast_ofNat, Rat.cast_natCast]
    rw [div_le_iff₀ h3]
    rw [div_lt_iff₀ d0] at hd
    linarith

/-- C142: a fiber turned by the angle `s` at the abscissa `s`, without deflection; the energy of the matrix on the fiber cut in `n`
beams tends to that of the continuous beam with sixteen times the bending stiffness. -/
example : ∀ ε : ℝ, 0 < ε → ∃ N : ℕ, ∀ n : ℕ, N ≤ n → 0 < n → ∃ (Km : Coo (Cell ℚ)) (M : ℕ → ℕ → ℚ) (u : ℕ → ℚ),
    stiffness lineMat (lineMesh n) none none (1 : ℚ) = .ok Km ∧ Entries Km M ∧ (∀ i ≤ n, u (2 * i) = 0 ∧ u (2 * i + 1) = -5 + 10 * i / n) ∧
    |((energy (2 * (lineMesh n).rows.length) M u : ℚ) : ℝ) - npPi / π * smoothEnergy (16 * (2 * ellipseInertia 1 1)) (1 * ellipseArea 1 1)
      (-(10 / 2)) (10 / 2) (fun s => s) (fun _ => 0) (fun _ => 1)| ≤ ε := by
  intro ε hε
  obtain ⟨d, d0, hd⟩ := C142_limit (Rat.castHom ℝ) Rat.cast_strictMono (f := lineFiber) (E := 2) rfl line_smooth hε
  obtain ⟨N, hN⟩ := exists_nat_gt (10 / d)
  refine ⟨N, fun n hNn hn => ?_⟩
  obtain ⟨Km, M, u, hK, hE, hu, hp, hspan, hsam, hsh⟩ := line_case hn
  have := hd lineMat (lineMesh n) 0 Km M u lineMat_good rfl (lineMesh_valid hn) hspan hp
    (hsh d d0 (lt_of_lt_of_le hN (by exact_mod_cast hNn))) hsam hK (fun r s _ _ => hE r s)
  exact ⟨Km, M, u, hK, hE, hu, by simpa [lineFiber] using this⟩

/-- C142: the same deformation on fine meshes has more than the energy of the elliptic fiber, and fourteen times its bending energy more. -/
example : ∃ N : ℕ, ∀ n : ℕ, N ≤ n → 0 < n → ∃ (Km : Coo (Cell ℚ)) (M : ℕ → ℕ → ℚ) (u : ℕ → ℚ),
    stiffness lineMat (lineMesh n) none none (1 : ℚ) = .ok Km ∧ Entries Km M ∧ (∀ i ≤ n, u (2 * i) = 0 ∧ u (2 * i + 1) = -5 + 10 * i / n) ∧
    npPi / π * (smoothEnergy (2 * ellipseInertia 1 1) (1 * ellipseArea 1 1) (-(10 / 2)) (10 / 2) (fun s => s) (fun _ => 0) (fun _ => 1) +
      14 * (2 * ellipseInertia 1 1 * 10)) < ((energy (2 * (lineMesh n).rows.length) M u : ℚ) : ℝ) := by
  have hint : ∫ _ in (-((Rat.castHom ℝ) lineFiber.l / 2))..((Rat.castHom ℝ) lineFiber.l / 2), (1 : ℝ) ^ 2 = 10 := by
    simp [lineFiber]
  obtain ⟨d, d0, hd⟩ := C142_excess (Rat.castHom ℝ) Rat.cast_strictMono (f := lineFiber) (E := 2) rfl line_smooth (by rw [hint]; norm_num)
  obtain ⟨N, hN⟩ := exists_nat_gt (10 / d)
  refine ⟨N, fun n hNn hn => ?_⟩
  obtain ⟨Km, M, u, hK, hE, hu, hp, hspan, hsam, hsh⟩ := line_case hn
  have := hd lineMat (lineMesh n) 0 Km M u lineMat_good rfl (lineMesh_valid hn) hspan hp
    (hsh d d0 (lt_of_lt_of_le hN (by exact_mod_cast hNn))) hsam hK (fun r s _ _ => hE r s)
  rw [hint] at this
  exact ⟨Km, M, u, hK, hE, hu, by simpa [lineFiber] using this⟩

/-- The fiber with an infinite tensile modulus. -/
def stringMat : Mat ℚ := { lineMat with fibers := [{ lineFiber with E := ⊤ }] }

theorem stringMat_good : GoodMat stringMat :=
  ((matCheck_frame_iff _).1 (by decide +kernel)).resolve_left (by simp [Skipped, stringMat, lineMat])

/-- C142: a string with deflection `s ^ 2`. -/
example : ∀ ε : ℝ, 0 < ε → ∃ N : ℕ, ∀ n : ℕ, N ≤ n → 0 < n → ∃ (Km : Coo (Cell ℚ)) (M : ℕ → ℕ → ℚ) (u : ℕ → ℚ),
    stiffness stringMat (lineMesh n) none none (1 : ℚ) = .ok Km ∧ (∀ r s, u r ≠ 0 → u s ≠ 0 → Km.get r s = .fin (M r s)) ∧
    (∀ i ≤ n, u (2 * i) = (-5 + 10 * i / n) ^ 2 ∧ u (2 * i + 1) = 0) ∧
    |((energy (2 * (lineMesh n).rows.length) M u : ℚ) : ℝ) - npPi / π * (1 * ellipseArea 1 1 * (1000 / 3))| ≤ ε := by
  intro ε hε
  obtain ⟨d, d0, hd⟩ := C142_string (Rat.castHom ℝ) Rat.cast_strictMono (f := { lineFiber with E := ⊤ }) rfl (w := fun s => s ^ 2)
    (w' := fun s => 2 * s) (fun s => by simpa using hasDerivAt_pow 2 s) (by fun_prop) hε
  obtain ⟨N, hN⟩ := exists_nat_gt (10 / d)
  refine ⟨N, fun n hNn hn => ?_⟩
  have hv := lineMesh_valid hn
  obtain ⟨-, -, -, -, -, -, hp, hspan, -, hsh⟩ := line_case hn
  have hst : StartsBeam (lineMesh n).rows 0 := ⟨lineRow n 0, lineMesh_get.2 ⟨by omega, rfl⟩, by simp [lineRow, hn.ne]⟩
  obtain ⟨Km, hK⟩ := C35_stiffness_total none none (1 : ℚ) stringMat_good hv (by
    intro r hr
    obtain ⟨i, hi⟩ := List.mem_iff_getElem?.1 hr
    obtain ⟨-, rfl⟩ := lineMesh_get.1 hi
    simp [lineRow, stringMat]) ⟨0, hst⟩
  obtain ⟨bl, has, hpos, -, -⟩ := assembled_lengths hK
  let u : ℕ → ℚ := fun r => if r % 2 = 0 ∧ r / 2 ≤ n then (-5 + 10 * ((r / 2 : ℕ) : ℚ) / n) ^ 2 else 0
  have u1 : ∀ i, u (2 * i + 1) = 0 := fun i => by
    have h1 : (2 * i + 1) % 2 = 1 := by omega
    simp [u, h1]
  have u0 : ∀ i, u (2 * i) = if i ≤ n then (-5 + 10 * (i : ℚ) / n) ^ 2 else 0 := fun i => by
    have h1 : (2 * i) % 2 = 0 := by omega
    have h2 : (2 * i) / 2 = i := by omega
    simp only [u, h1, h2, true_and]
  have hM : ∀ r s, u r ≠ 0 → u s ≠ 0 → Km.get r s = .fin (table (lineMesh n).rows (1 : ℚ) bl r s) := by
    intro r s hr _
    refine has.disp stringMat_good (hpos hp) (Or.inl ?_)
    by_contra h
    exact hr (by simp [u, h])
  refine ⟨Km, _, u, hK, hM, fun i hi => ⟨by rw [u0, if_pos hi], u1 i⟩, ?_⟩
  have := hd stringMat (lineMesh n) 0 Km _ u stringMat_good rfl hv hspan hp (hsh d d0 (lt_of_lt_of_le hN (by exact_mod_cast hNn))) (by
    intro i
    constructor
    · intro hi
      have hi := lineMesh_nodes.1 hi
      rw [u0, u1, if_pos hi, lineMesh_abscissa hi]
      simp
    · intro hi
      have hi : ¬ i ≤ n := fun h => hi (lineMesh_nodes.2 h)
      rw [u0, u1, if_neg hi]
      simp) hK hM
  have hint : ∫ s in (-(10 / 2 : ℝ))..(10 / 2), (2 * s) ^ 2 = 1000 / 3 := by
    simp only [mul_pow]
    rw [intervalIntegral.integral_const_mul, integral_pow]
    norm_num
  simp only [lineFiber, eq_ratCast, Rat.cast_ofNat, Rat.cast_one] at this
  rw [hint] at this
  exact this

/-- C142: the mesh of a net. -/
example : ∃ net mesh, netNew crossMat true = .ok net ∧ meshNew net = .ok mesh ∧ SpansFiber mesh.rows 0 10 := by
  obtain ⟨net, hn, -⟩ := C06_netNew_ok crossMat_good true
  obtain ⟨mesh, hm, -⟩ := C27_mesh_of_net crossMat_good hn
  exact ⟨net, mesh, hn, hm, (C142_spans crossMat_good hn hm (k := 0) rfl).2⟩

end Fibermat
