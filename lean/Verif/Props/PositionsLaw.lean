import Verif.Lemmas.Multinomial
import Verif.Props.Positions

/-! # C124: law of the nodes along a fiber of a random mat -/

namespace Fibermat
open Spec MeasureTheory ProbabilityTheory Set Filter Topology

/-- A fiber crosses another one at one point at most. -/
theorem crossIn_apart {l S α β α' β' : ℝ} (hS : 0 < S) (hlS : l ≤ S / 2) (hα : -(l / 2) ≤ α) (hβ : β ≤ l / 2) (hα' : -(l / 2) ≤ α') (hβ' : β' ≤ l / 2)
    (hap : β ≤ α' ∨ β' ≤ α) {y y' : (ℝ × ℝ) × ℝ} (h : CrossIn l S α β y y') : ¬ CrossIn l S α' β' y y' := by
  rintro ⟨i', j', h'⟩
  obtain ⟨i, j, h⟩ := h
  have c1 := Real.abs_cos_le_one (Real.pi * (y.2 - 1 / 2))
  have s1 := Real.abs_sin_le_one (Real.pi * (y.2 - 1 / 2))
  have c2 := Real.abs_cos_le_one (Real.pi * (y'.2 - 1 / 2))
  have s2 := Real.abs_sin_le_one (Real.pi * (y'.2 - 1 / 2))
  generalize Real.cos (Real.pi * (y.2 - 1 / 2)) = u at *
  generalize Real.sin (Real.pi * (y.2 - 1 / 2)) = v at *
  generalize Real.cos (Real.pi * (y'.2 - 1 / 2)) = u' at *
  generalize Real.sin (Real.pi * (y'.2 - 1 / 2)) = v' at *
  obtain ⟨hD, p, t, hp, ht, e1, e2⟩ := (mem_parallelogram (w := (S * (y'.1.1 - (y.1.1 + (α + β) / 2 * u / S) + (i : ℝ)),
    S * (y'.1.2 - (y.1.2 + (α + β) / 2 * v / S) + (j : ℝ))))).1 h
  obtain ⟨-, p', t', hp', ht', e1', e2'⟩ := (mem_parallelogram (w := (S * (y'.1.1 - (y.1.1 + (α' + β') / 2 * u / S) + (i' : ℝ)),
    S * (y'.1.2 - (y.1.2 + (α' + β') / 2 * v / S) + (j' : ℝ))))).1 h'
  have hS' := hS.ne'
  simp only at e1 e2 e1' e2'
  rw [show S * (y'.1.1 - (y.1.1 + (α + β) / 2 * u / S) + (i : ℝ)) = S * (y'.1.1 - y.1.1 + i) - (α + β) / 2 * u by field_simp; ring] at e1
  rw [show S * (y'.1.2 - (y.1.2 + (α + β) / 2 * v / S) + (j : ℝ)) = S * (y'.1.2 - y.1.2 + j) - (α + β) / 2 * v by field_simp; ring] at e2
  rw [show S * (y'.1.1 - (y.1.1 + (α' + β') / 2 * u / S) + (i' : ℝ)) = S * (y'.1.1 - y.1.1 + i') - (α' + β') / 2 * u by field_simp; ring] at e1'
  rw [show S * (y'.1.2 - (y.1.2 + (α' + β') / 2 * v / S) + (j' : ℝ)) = S * (y'.1.2 - y.1.2 + j') - (α' + β') / 2 * v by field_simp; ring] at e2'
  obtain ⟨x, hx⟩ : ∃ x, x = ((α + β) / 2 - p) - ((α' + β') / 2 - p') := ⟨_, rfl⟩
  obtain ⟨z, hz⟩ : ∃ z, z = t - t' := ⟨_, rfl⟩
  rw [abs_lt] at hp hp' ht ht'
  have hx1 : |x| < l := by rw [hx, abs_lt]; constructor <;> linarith
  have hz1 : |z| < l := by rw [hz, abs_lt]; constructor <;> linarith
  have hx0 : x ≠ 0 := by
    intro h0
    rcases hap with h | h <;> linarith
  have f1 : S * ((i - i' : ℤ) : ℝ) = x * u + z * u' := by
    rw [hx, hz]
    push_cast
    linarith
  have f2 : S * ((j - j' : ℤ) : ℝ) = x * v + z * v' := by
    rw [hx, hz]
    push_cast
    linarith
  have zero : ∀ (k : ℤ) (b c : ℝ), |b| ≤ 1 → |c| ≤ 1 → S * (k : ℝ) = x * b + z * c → k = 0 := by
    intro k b c hb hc hk
    have h1 : |S * (k : ℝ)| < S := by
      rw [hk]
      calc |x * b + z * c| ≤ |x * b| + |z * c| := abs_add_le _ _
        _ = |x| * |b| + |z| * |c| := by rw [abs_mul, abs_mul]
        _ ≤ |x| * 1 + |z| * 1 := add_le_add (mul_le_mul_of_nonneg_left hb (abs_nonneg _)) (mul_le_mul_of_nonneg_left hc (abs_nonneg _))
        _ < S := by linarith
    rw [abs_mul, abs_of_pos hS] at h1
    have h2 : |(k : ℝ)| < 1 := by
      by_contra h3
      have := mul_le_mul_of_nonneg_left (not_lt.1 h3) hS.le
      linarith
    rw [← Int.cast_abs] at h2
    have h3 : |k| < 1 := by exact_mod_cast h2
    exact Int.abs_lt_one_iff.1 h3
  have g1 := zero _ _ _ c1 c2 f1
  have g2 := zero _ _ _ s1 s2 f2
  rw [g1, Int.cast_zero, mul_zero] at f1
  rw [g2, Int.cast_zero, mul_zero] at f2
  have : x * (u * v' - v * u') = 0 := by linear_combination (-v') * f1 + u' * f2
  exact (mul_ne_zero hx0 hD) this

section
variable {Ω : Type} [MeasurableSpace Ω] {P : Measure Ω} {d : ℕ → Ω → ℝ} {e s : ℕ} {a : MatArgs ℝ}

/-- C124: the numbers of nodes of a fiber in segments that do not overlap have the multinomial law, the probability of a segment being proportional
to its length. -/
theorem C124_joint (hd : UniformDraws P d) (hseed : GoodSeed a.seed) (hs : a.seed ≠ none) (hpos : PositiveArgs a)
    (hpsi : a.psi = 0) (hl : a.length ≤ a.size / 2) (hπ : a.theta = Real.pi) {lp : Linprog ℝ} (hlp : GoodLinprog lp)
    {i : ℕ} (hi : (i : ℤ) < a.n) {L : List ((ℝ × ℝ) × ℕ)} (hL : ∀ p ∈ L, -(a.length / 2) ≤ p.1.1 ∧ p.1.1 ≤ p.1.2 ∧ p.1.2 ≤ a.length / 2)
    (hap : DisjointParts L) :
    P {ω | ∃ m s' net m' st mesh, matNew (stream (fun k => d k ω)) Real.cos Real.sin e a s = .ok (m, s') ∧ netNew m true = .ok net ∧
      stackNew lp m net none = .ok (m', st) ∧ meshNew st = .ok mesh ∧ ∀ p ∈ L, nodesBetween mesh.rows i p.1.1 p.1.2 = p.2} =
      ENNReal.ofReal (multinomial (a.n.toNat - 1)
        (L.map (fun p => (crossChance a.length a.size Real.pi * ((p.1.2 - p.1.1) / a.length), p.2)))) := by
  classical
  have hS : 0 < a.size := by linarith [hpos.1]
  have hi' : i < a.n.toNat := by omega
  let L' : List (Rel × ℝ × ℕ) := L.map (fun p =>
    (CrossIn a.length a.size p.1.1 p.1.2, crossChance a.length a.size Real.pi * ((p.1.2 - p.1.1) / a.length), p.2))
  have hTm : ∀ j ∈ ∅ ∪ (Finset.range a.n.toNat).erase i, j < a.n.toNat ∧ j ≠ i := by
    intro j hj
    rw [Finset.empty_union] at hj
    exact ⟨Finset.mem_range.1 (Finset.mem_of_mem_erase hj), Finset.ne_of_mem_erase hj⟩
  have hfalse : FairRel (fun _ _ => False) 0 := ⟨by simp, le_rfl, fun y _ _ => by simp⟩
  have hmain := rel_multi hd hi' (L := L') (R₀ := fun _ _ => False) (r := 0) (W := ∅) (T := (Finset.range a.n.toNat).erase i)
    (S := fun _ _ _ => False) (w := fun _ => 0)
    (by
      intro p hp
      obtain ⟨q, hq, rfl⟩ := List.mem_map.1 hp
      obtain ⟨h1, h2, h3⟩ := hL q hq
      exact crossIn_fair hpos.1 hS hl h2 (by linarith))
    (by
      rw [List.pairwise_map]
      refine List.Pairwise.imp_of_mem ?_ hap
      intro p q hp hq hpq y y' h
      exact crossIn_apart hS hl (hL p hp).1 (hL p hp).2.2 (hL q hq).1 (hL q hq).2.2 hpq h)
    hfalse (fun _ _ _ _ h => h.elim) (Finset.disjoint_empty_left _) hTm (by simp)
  rw [Finset.prod_empty, one_mul, multi_eq, Finset.card_erase_of_mem (Finset.mem_range.2 hi'), Finset.card_range] at hmain
  have hmap : L'.map (·.2) = L.map (fun p => (crossChance a.length a.size Real.pi * ((p.1.2 - p.1.1) / a.length), p.2)) := by
    simp [L', Function.comp_def]
  rw [hmap] at hmain
  rw [← hmain]
  congr 1
  ext ω
  have hinit : ∀ {st : Net ℝ} {mesh : Mesh ℝ}, meshNew st = .ok mesh → meshInit st = .ok mesh := by
    intro st mesh this
    unfold meshNew at this
    cases h : meshInit st with
    | error x => rw [h] at this; cases this
    | ok v =>
      rw [h] at this
      cases hc : meshCheck v.frame with
      | error x => simp [Bind.bind, Except.bind, hc] at this
      | ok x =>
        simp [Bind.bind, Except.bind, hc, Pure.pure, Except.pure] at this
        rw [this]
  have key : ∀ {m s' net m' st mesh}, matNew (stream (fun k => d k ω)) Real.cos Real.sin e a s = .ok (m, s') → netNew m true = .ok net →
      stackNew lp m net none = .ok (m', st) → meshNew st = .ok mesh → ∀ p ∈ L, nodesBetween mesh.rows i p.1.1 p.1.2 =
        relCount d a.n.toNat (CrossIn a.length a.size p.1.1 p.1.2) i ((Finset.range a.n.toNat).erase i) ω := by
    intro m s' net m' st mesh h hnet hst hme p hp
    obtain ⟨hgood, -, hlen, hcol, -⟩ := random_mat hd hs hpsi h
    have hw : ∀ f ∈ m.fibers, f.w = 0 := by
      intro f hf
      obtain ⟨k, hk⟩ := List.mem_iff_getElem?.1 hf
      exact (hcol k f hk).2.2.2.2.1
    have hf : m.fibers[i]? = some (m.fibers[i]'(by omega)) := List.getElem?_eq_getElem _
    have hfl := (hcol i _ hf).2.2.2.2.2
    rw [nodesBetween_card hlp hgood hw hnet hst (hinit hme) hf (by rw [hfl]; exact (hL p hp).1) (by rw [hfl]; exact (hL p hp).2.2), hlen,
      relCount_eq]
    congr 1
    refine Finset.filter_congr fun j hj => ?_
    have := hTm j (by rw [Finset.empty_union]; exact hj)
    exact random_linkedIn hd hs hpsi hS hl hπ h hnet this.2.symm hi' this.1 (hL p hp).1 (hL p hp).2.2
  have hmem : ω ∈ {ω | (∀ j ∈ (∅ : Finset ℕ), ω ∈ relEvent d a.n.toNat (fun _ _ => False) i j) ∧
      (∀ j ∈ (Finset.range a.n.toNat).erase i, ω ∉ relEvent d a.n.toNat (fun _ _ => False) i j) ∧
      ∀ p ∈ L', relCount d a.n.toNat p.1 i ((Finset.range a.n.toNat).erase i) ω = p.2.2} ↔
      ∀ p ∈ L, relCount d a.n.toNat (CrossIn a.length a.size p.1.1 p.1.2) i ((Finset.range a.n.toNat).erase i) ω = p.2 := by
    simp only [mem_ofPred_eq]
    constructor
    · rintro ⟨-, -, h⟩ p hp
      exact h _ (List.mem_map.2 ⟨p, hp, rfl⟩)
    · intro h
      refine ⟨by simp, fun _ _ h => h, ?_⟩
      intro p hp
      obtain ⟨q, hq, rfl⟩ := List.mem_map.1 hp
      exact h q hq
  rw [hmem]
  constructor
  · rintro ⟨m, s', net, m', st, mesh, h, hnet, hst, hme, hc⟩ p hp
    rw [← key h hnet hst hme p hp]
    exact hc p hp
  · intro hc
    obtain ⟨m, s', net, h, hnet⟩ := C118_exists (e := e) (s := s) hd hseed (by omega) hS.le hpos true ω
    obtain ⟨hgood, -⟩ := random_mat hd hs hpsi h
    obtain ⟨m', st, mesh, hst, hme, -⟩ := C27_mesh_of_stack hlp hgood hnet none
    refine ⟨m, s', net, m', st, mesh, h, hnet, hst, hme, fun p hp => ?_⟩
    rw [key h hnet hst hme p hp]
    exact hc p hp

/-- C124: the number of nodes of a fiber in one segment has the binomial law. -/
theorem C124_nodes (hd : UniformDraws P d) (hseed : GoodSeed a.seed) (hs : a.seed ≠ none) (hpos : PositiveArgs a)
    (hpsi : a.psi = 0) (hl : a.length ≤ a.size / 2) (hπ : a.theta = Real.pi) {lp : Linprog ℝ} (hlp : GoodLinprog lp)
    {i : ℕ} (hi : (i : ℤ) < a.n) {α β : ℝ} (hα : -(a.length / 2) ≤ α) (hαβ : α ≤ β) (hβ : β ≤ a.length / 2) (k : ℕ) :
    P {ω | ∃ m s' net m' st mesh, matNew (stream (fun k => d k ω)) Real.cos Real.sin e a s = .ok (m, s') ∧ netNew m true = .ok net ∧
      stackNew lp m net none = .ok (m', st) ∧ meshNew st = .ok mesh ∧ nodesBetween mesh.rows i α β = k} =
      ENNReal.ofReal (Spec.binomial (a.n.toNat - 1) (crossChance a.length a.size Real.pi * ((β - α) / a.length)) k) := by
  have h := C124_joint (e := e) (s := s) hd hseed hs hpos hpsi hl hπ hlp hi (L := [((α, β), k)]) (by simpa using ⟨hα, hαβ, hβ⟩)
    (by simp [DisjointParts])
  simp only [List.mem_singleton, forall_eq] at h
  rw [h, ← multi_eq]
  congr 1
  simp [multi, Spec.binomial]

/-- C124: the probability that a segment of a fiber is free of nodes. -/
theorem C124_free (hd : UniformDraws P d) (hseed : GoodSeed a.seed) (hs : a.seed ≠ none) (hpos : PositiveArgs a)
    (hpsi : a.psi = 0) (hl : a.length ≤ a.size / 2) (hπ : a.theta = Real.pi) {lp : Linprog ℝ} (hlp : GoodLinprog lp)
    {i : ℕ} (hi : (i : ℤ) < a.n) {α β : ℝ} (hα : -(a.length / 2) ≤ α) (hαβ : α ≤ β) (hβ : β ≤ a.length / 2) :
    P {ω | ∃ m s' net m' st mesh, matNew (stream (fun k => d k ω)) Real.cos Real.sin e a s = .ok (m, s') ∧ netNew m true = .ok net ∧
      stackNew lp m net none = .ok (m', st) ∧ meshNew st = .ok mesh ∧ ∀ r ∈ mesh.rows, r.fiber = (i : ℤ) → ¬ (α < r.s ∧ r.s < β)} =
      ENNReal.ofReal ((1 - 2 * a.length * (β - α) / (Real.pi * a.size ^ 2)) ^ (a.n.toNat - 1)) := by
  classical
  have h := C124_nodes (e := e) (s := s) hd hseed hs hpos hpsi hl hπ hlp hi hα hαβ hβ 0
  have e1 : crossChance a.length a.size Real.pi * ((β - α) / a.length) = 2 * a.length * (β - α) / (Real.pi * a.size ^ 2) := by
    rw [C118_isotropic]
    have := hpos.1.ne'
    field_simp
  rw [e1] at h
  simp only [Spec.binomial, Nat.choose_zero_right, Nat.cast_one, pow_zero, one_mul, Nat.sub_zero] at h
  rw [← h]
  congr 1
  ext ω
  have : ∀ rows : List (MeshRow ℝ), (∀ r ∈ rows, r.fiber = (i : ℤ) → ¬ (α < r.s ∧ r.s < β)) ↔ nodesBetween rows i α β = 0 := by
    intro rows
    unfold nodesBetween
    rw [List.length_eq_zero_iff, List.filter_eq_nil_iff]
    simp only [decide_eq_true_eq, not_and]
  simp only [this]

end

noncomputable section
variable {Ω : Type} [MeasurableSpace Ω] {P : Measure Ω} {d : ℕ → Ω → ℝ} {e s : ℕ} {a : ℕ → MatArgs ℝ} {l ρ : ℝ}

/-- C124: in large mats the nodes along a fiber become a Poisson process: the numbers of nodes in segments that do not overlap tend to independent
Poisson numbers, of means `2 ρ l / π` times the lengths of the segments. -/
theorem C124_poisson (hd : UniformDraws P d) (h : GrowingMats a l ρ) {lp : Linprog ℝ} (hlp : GoodLinprog lp) {i : ℕ → ℕ} (hi : ∀ t, i t ≤ t)
    {L : List ((ℝ × ℝ) × ℕ)} (hL : ∀ p ∈ L, -(l / 2) ≤ p.1.1 ∧ p.1.1 ≤ p.1.2 ∧ p.1.2 ≤ l / 2) (hap : DisjointParts L) :
    Tendsto (fun t : ℕ => P {ω | ∃ m s' net m' st mesh, matNew (stream (fun k => d k ω)) Real.cos Real.sin e (a t) s = .ok (m, s') ∧
      netNew m true = .ok net ∧ stackNew lp m net none = .ok (m', st) ∧ meshNew st = .ok mesh ∧
      ∀ p ∈ L, nodesBetween mesh.rows (i t) p.1.1 p.1.2 = p.2}) atTop
      (𝓝 (ENNReal.ofReal (L.map (fun p => poisson (2 * ρ * l / Real.pi * (p.1.2 - p.1.1)) p.2)).prod)) := by
  have hl := h.lpos
  have h1 := multi_tendsto (L := L.map (fun p => ((fun t : ℕ => crossChance (a t).length (a t).size Real.pi * ((p.1.2 - p.1.1) / l)),
    2 * ρ * l / Real.pi * (p.1.2 - p.1.1), p.2))) (r := fun _ => 0) (R := 0)
    (by
      intro p hp
      obtain ⟨q, hq, rfl⟩ := List.mem_map.1 hp
      have := (growing_mean h).mul_const ((q.1.2 - q.1.1) / l)
      have e1 : meanNeighbours l ρ * ((q.1.2 - q.1.1) / l) = 2 * ρ * l / Real.pi * (q.1.2 - q.1.1) := by
        unfold meanNeighbours
        field_simp
      rw [e1] at this
      exact this.congr fun t => by ring)
    (by simp) 0
  have e2 : Real.exp (-(0 + ((L.map (fun p => ((fun t : ℕ => crossChance (a t).length (a t).size Real.pi * ((p.1.2 - p.1.1) / l)),
      2 * ρ * l / Real.pi * (p.1.2 - p.1.1), p.2))).map (·.2.1)).sum)) *
      ((L.map (fun p => ((fun t : ℕ => crossChance (a t).length (a t).size Real.pi * ((p.1.2 - p.1.1) / l)),
      2 * ρ * l / Real.pi * (p.1.2 - p.1.1), p.2))).map (fun p => p.2.1 ^ p.2.2 / (p.2.2.factorial : ℝ))).prod =
      (L.map (fun p => poisson (2 * ρ * l / Real.pi * (p.1.2 - p.1.1)) p.2)).prod := by
    rw [List.map_map, List.map_map, zero_add]
    simp only [Function.comp_def]
    clear h1 hL hap
    induction L with
    | nil => simp
    | cons p L ih =>
      simp only [List.map_cons, List.sum_cons, List.prod_cons]
      rw [← ih, neg_add, Real.exp_add]
      unfold poisson
      ring
  rw [e2] at h1
  refine (ENNReal.tendsto_ofReal h1).congr fun t => ?_
  rw [C124_joint hd (h.seed t).1 (h.seed t).2 (h.positive t) (h.planar t) (h.small' t) (h.theta t) hlp
    (by rw [h.n t]; have := hi t; omega) (by rw [h.length t]; exact hL) hap, h.toNat t, ← multi_eq, List.map_map, Nat.add_sub_cancel, Nat.sub_zero]
  simp only [Function.comp_def, h.length t]

/-- C124: in large mats the length of a fiber free of nodes from a given point is exponential, with mean `π / (2 ρ l)`. -/
theorem C124_gap (hd : UniformDraws P d) (h : GrowingMats a l ρ) {lp : Linprog ℝ} (hlp : GoodLinprog lp) {i : ℕ → ℕ} (hi : ∀ t, i t ≤ t)
    {α c : ℝ} (hα : -(l / 2) ≤ α) (hc : 0 ≤ c) (hβ : α + c ≤ l / 2) :
    Tendsto (fun t : ℕ => P {ω | ∃ m s' net m' st mesh, matNew (stream (fun k => d k ω)) Real.cos Real.sin e (a t) s = .ok (m, s') ∧
      netNew m true = .ok net ∧ stackNew lp m net none = .ok (m', st) ∧ meshNew st = .ok mesh ∧
      ∀ r ∈ mesh.rows, r.fiber = (i t : ℤ) → ¬ (α < r.s ∧ r.s < α + c)}) atTop (𝓝 (ENNReal.ofReal (Real.exp (-(2 * ρ * l / Real.pi * c))))) := by
  classical
  have h1 := C124_poisson (e := e) (s := s) hd h hlp hi (L := [((α, α + c), 0)]) (by simpa using ⟨hα, hc, hβ⟩) (by simp [DisjointParts])
  simp only [List.mem_singleton, forall_eq, List.map_cons, List.map_nil, List.prod_cons, List.prod_nil, mul_one, poisson, pow_zero,
    Nat.factorial_zero, Nat.cast_one, div_one, add_sub_cancel_left] at h1
  refine h1.congr fun t => ?_
  congr 1
  ext ω
  have : ∀ rows : List (MeshRow ℝ), (∀ r ∈ rows, r.fiber = (i t : ℤ) → ¬ (α < r.s ∧ r.s < α + c)) ↔ nodesBetween rows (i t) α (α + c) = 0 := by
    intro rows
    unfold nodesBetween
    rw [List.length_eq_zero_iff, List.filter_eq_nil_iff]
    simp only [decide_eq_true_eq, not_and]
  simp only [this]

end
end Fibermat
