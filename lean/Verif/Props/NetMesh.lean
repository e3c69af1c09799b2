import Verif.Props.Net
import Verif.Props.MeshInit
import Mathlib.Algebra.BigOperators.Ring.Finset
import Mathlib.Algebra.Order.BigOperators.Group.Finset

/-! # C27, C29: meshes of networks -/

set_option linter.unusedSectionVars false

namespace Fibermat
open Spec
variable {K : Type} [Field K] [LinearOrder K] [IsStrictOrderedRing K]

/-- Rows where each fiber has an end row, other nodes being strictly between its ends. -/
structure Ended (rows : List (NetRow K)) (half : Int → K) : Prop where
  inner : ∀ r ∈ rows, r.A ≠ r.B → |r.sA| < half r.A ∧ |r.sB| < half r.B
  ends : ∀ r ∈ rows, r.A = r.B → r.sA = half r.A ∧ r.sB = -half r.A
  pos : ∀ r ∈ rows, 0 < half r.A
  hasA : ∀ r ∈ rows, ∃ e ∈ rows, e.A = r.A ∧ e.B = r.A
  hasB : ∀ r ∈ rows, ∃ e ∈ rows, e.A = r.B ∧ e.B = r.B

/-- Half the length of a fiber, by label. -/
def halfLength (m : Mat K) (k : Int) : K := ((m.fibers[k.toNat]?).map (fun f => f.l / 2)).getD 0

theorem netNew_ended {m : Mat K} (h : GoodMat m) {periodic : Bool} {net : Net K} (hn : netNew m periodic = .ok net) :
    Ended net.rows (halfLength m) := by
  have key : ∀ r ∈ net.rows, ∃ f g, Joins m r f g ∧ halfLength m r.A = f.l / 2 ∧ halfLength m r.B = g.l / 2 := by
    intro r hr
    obtain ⟨f, g, hj, -⟩ := C08_nodes_on_fibers h hn hr
    obtain ⟨a, b, hA, hB, hf, hg⟩ := hj
    refine ⟨f, g, ⟨a, b, hA, hB, hf, hg⟩, ?_, ?_⟩
    · simp [halfLength, hA, hf]
    · simp [halfLength, hB, hg]
  have hasEnd : ∀ (i : Nat) (f : Fiber K), m.fibers[i]? = some f → ∃ e ∈ net.rows, e.A = (i : Int) ∧ e.B = (i : Int) := by
    intro i f hf
    obtain ⟨k, r, hr, hA, hB, -⟩ := C07_end_row h hn hf
    exact ⟨r, List.mem_of_getElem? hr, hA, hB⟩
  refine ⟨?_, ?_, ?_, ?_, ?_⟩
  · intro r hr hne
    obtain ⟨f, g, hj, -, -, -, -, hlt⟩ := C08_nodes_on_fibers h hn hr
    have hle := C06_labels h hn r hr
    obtain ⟨h1, h2⟩ := hlt (by omega)
    obtain ⟨a, b, hA, hB, hf, hg⟩ := hj
    simp only [halfLength, hA, hB, Int.toNat_natCast, hf, hg, Option.map_some, Option.getD_some]
    exact ⟨h1, h2⟩
  · intro r hr he
    obtain ⟨f, g, ⟨a, b, hA, hB, hf, hg⟩, h1, -⟩ := key r hr
    obtain ⟨k, r', hr', hA', hB', hsA, hsB, -, -, huniq⟩ := C07_end_row h hn hf
    obtain ⟨k0, hk0⟩ := List.mem_iff_getElem?.1 hr
    have := huniq k0 r hk0 hA (by rw [← he]; exact hA)
    subst this
    rw [hr'] at hk0; cases hk0
    rw [h1]; exact ⟨hsA, hsB⟩
  · intro r hr
    obtain ⟨f, g, ⟨a, b, hA, hB, hf, hg⟩, h1, -⟩ := key r hr
    rw [h1]
    have := goodMat_pos h f (List.mem_of_getElem? hf)
    linarith
  · intro r hr
    obtain ⟨f, g, ⟨a, b, hA, hB, hf, hg⟩, -⟩ := key r hr
    rw [hA]; exact hasEnd a f hf
  · intro r hr
    obtain ⟨f, g, ⟨a, b, hA, hB, hf, hg⟩, -⟩ := key r hr
    rw [hB]; exact hasEnd b g hg

/-- Removing rows other than end rows keeps the ends. -/
theorem Ended.filter {rows : List (NetRow K)} {half : Int → K} (h : Ended rows half) (p : NetRow K → Bool)
    (hp : ∀ r ∈ rows, r.A = r.B → p r = true) : Ended (rows.filter p) half := by
  refine ⟨fun r hr => h.inner r (List.mem_of_mem_filter hr), fun r hr => h.ends r (List.mem_of_mem_filter hr),
    fun r hr => h.pos r (List.mem_of_mem_filter hr), ?_, ?_⟩
  · intro r hr
    obtain ⟨e, he, h1, h2⟩ := h.hasA r (List.mem_of_mem_filter hr)
    exact ⟨e, List.mem_filter.2 ⟨he, hp e he (by rw [h1, h2])⟩, h1, h2⟩
  · intro r hr
    obtain ⟨e, he, h1, h2⟩ := h.hasB r (List.mem_of_mem_filter hr)
    exact ⟨e, List.mem_filter.2 ⟨he, hp e he (by rw [h1, h2])⟩, h1, h2⟩

/-- Nodes of a mesh of an ended net: bounds, and nodes at both ends of the fiber. -/
theorem ended_nodes {net : List (NetRow K)} {half : Int → K} (h : Ended net half) {rows : List (MeshRow K)}
    {place : Nat → Nat} (hp : Placement net rows place) {i : Nat} {a : MeshRow K} (ha : rows[i]? = some a) :
    |a.s| ≤ half a.fiber ∧ 0 < half a.fiber ∧
      (∃ (j : Nat) (b : MeshRow K), rows[j]? = some b ∧ b.fiber = a.fiber ∧ b.s = half a.fiber) ∧
      (∃ (j : Nat) (b : MeshRow K), rows[j]? = some b ∧ b.fiber = a.fiber ∧ b.s = -half a.fiber) ∧
      ((a.s = half a.fiber ∨ a.s = - half a.fiber) ∨ |a.s| < half a.fiber) ∧
      (∀ k r, net[k]? = some r → (i = place (2 * k) ∨ i = place (2 * k + 1)) → r.A ≠ r.B → |a.s| < half a.fiber) := by
  have hasEnds : ∀ e ∈ net, e.A = e.B → ∀ c : Int, e.A = c →
      (∃ (j : Nat) (b : MeshRow K), rows[j]? = some b ∧ b.fiber = c ∧ b.s = half c) ∧
      (∃ (j : Nat) (b : MeshRow K), rows[j]? = some b ∧ b.fiber = c ∧ b.s = -half c) := by
    intro e he hAB c hc
    obtain ⟨k, hk⟩ := List.mem_iff_getElem?.1 he
    obtain ⟨u, hu, hu1, -⟩ := hp.endA k e hk
    obtain ⟨v, hv, hv1, -⟩ := hp.endB k e hk
    obtain ⟨e1, e2⟩ := h.ends e he hAB
    refine ⟨⟨_, u, hu, by rw [hu1.fiber, hc], by rw [hu1.s, e1, hc]⟩, ⟨_, v, hv, by rw [hv1.fiber, ← hAB, hc], by rw [hv1.s, e2, hc]⟩⟩
  have posB : ∀ r ∈ net, 0 < half r.B := by
    intro r hr
    obtain ⟨e, he, h1, h2⟩ := h.hasB r hr
    rw [← h1]; exact h.pos e he
  obtain ⟨q, hq, hqi⟩ := placement_surj hp (List.getElem?_eq_some_iff.1 ha).1
  have main : ∀ k r, net[k]? = some r → (i = place (2 * k) ∨ i = place (2 * k + 1)) →
      (a.fiber = r.A ∧ a.s = r.sA) ∨ (a.fiber = r.B ∧ a.s = r.sB) := by
    intro k r hk hi
    rcases hi with rfl | rfl
    · obtain ⟨u, hu, hu1, -⟩ := hp.endA k r hk
      rw [ha] at hu; cases hu
      exact Or.inl ⟨hu1.fiber, hu1.s⟩
    · obtain ⟨u, hu, hu1, -⟩ := hp.endB k r hk
      rw [ha] at hu; cases hu
      exact Or.inr ⟨hu1.fiber, hu1.s⟩
  have last : ∀ k r, net[k]? = some r → (i = place (2 * k) ∨ i = place (2 * k + 1)) → r.A ≠ r.B → |a.s| < half a.fiber := by
    intro k r hk hi hne
    obtain ⟨h1, h2⟩ := h.inner r (List.mem_of_getElem? hk) hne
    rcases main k r hk hi with ⟨e1, e2⟩ | ⟨e1, e2⟩ <;> rw [e1, e2] <;> assumption
  have hk : q / 2 < net.length := by omega
  have hr := List.getElem?_eq_getElem hk
  have hi : i = place (2 * (q / 2)) ∨ i = place (2 * (q / 2) + 1) := by
    rcases Nat.mod_two_eq_zero_or_one q with e | e
    · left; rw [← hqi]; congr 1; omega
    · right; rw [← hqi]; congr 1; omega
  set r := net[q / 2] with hrdef
  have hrm : r ∈ net := List.mem_of_getElem? hr
  have hpos : 0 < half a.fiber := by
    rcases main _ r hr hi with ⟨e1, -⟩ | ⟨e1, -⟩ <;> rw [e1]
    · exact h.pos r hrm
    · exact posB r hrm
  have hend : ∃ e ∈ net, e.A = e.B ∧ e.A = a.fiber := by
    rcases main _ r hr hi with ⟨e1, -⟩ | ⟨e1, -⟩ <;> rw [e1]
    · obtain ⟨e, he, h1, h2⟩ := h.hasA r hrm; exact ⟨e, he, by rw [h1, h2], h1⟩
    · obtain ⟨e, he, h1, h2⟩ := h.hasB r hrm; exact ⟨e, he, by rw [h1, h2], h1⟩
  obtain ⟨e, he, hAB, heq⟩ := hend
  obtain ⟨b1, b2⟩ := hasEnds e he hAB _ heq
  have hcase : (a.s = half a.fiber ∨ a.s = - half a.fiber) ∨ |a.s| < half a.fiber := by
    by_cases hne : r.A = r.B
    · left
      obtain ⟨q1, q2⟩ := h.ends r hrm hne
      rcases main _ r hr hi with ⟨e1, e2⟩ | ⟨e1, e2⟩ <;> rw [e1, e2]
      · exact Or.inl q1
      · rw [q2, hne]; exact Or.inr rfl
    · exact Or.inr (last _ r hr hi hne)
  refine ⟨?_, hpos, b1, b2, hcase, last⟩
  rcases hcase with (e1 | e1) | e1
  · rw [e1, abs_of_pos hpos]
  · rw [e1, abs_neg, abs_of_pos hpos]
  · exact e1.le

theorem sorted_lt {rows : List (MeshRow K)} (hs : NodesSorted rows) {i j : Nat} {a b : MeshRow K}
    (ha : rows[i]? = some a) (hb : rows[j]? = some b) (hf : a.fiber = b.fiber) (hlt : a.s < b.s) : i < j := by
  obtain ⟨hi, rfl⟩ := List.getElem?_eq_some_iff.1 ha
  obtain ⟨hj, rfl⟩ := List.getElem?_eq_some_iff.1 hb
  by_contra hge
  rcases Nat.lt_or_ge j i with hji | hji
  · rcases List.pairwise_iff_getElem.1 hs j i hj hi hji with h | ⟨-, h⟩
    · omega
    · exact absurd hlt (not_lt.2 h)
  · have : i = j := by omega
    subst this
    exact lt_irrefl _ hlt

theorem sorted_le {rows : List (MeshRow K)} (hs : NodesSorted rows) {i j : Nat} {a b : MeshRow K}
    (ha : rows[i]? = some a) (hb : rows[j]? = some b) (hf : a.fiber = b.fiber) (hij : i ≤ j) : a.s ≤ b.s := by
  by_contra hlt
  have := sorted_lt hs hb ha hf.symm (not_le.1 hlt)
  omega

/-- The mesh of an ended valid net passes its check. -/
theorem meshNew_of_ended {net : Net K} {half : Int → K} (hv : netCheck net.frame = .ok ()) (he : Ended net.rows half) :
    ∃ mesh, meshNew net = .ok mesh ∧ meshInit net = .ok mesh := by
  have hi := meshInit_of_check hv
  by_cases hs : Skipped net.attrs
  · refine ⟨_, ?_, hi⟩
    rw [meshNew_eq hv, C28_skip _ (by exact hs)]; rfl
  · obtain ⟨place, hp⟩ := C26_constraints hi
    refine ⟨_, (C27_meshNew_iff hs hi hp).1 ?_, hi⟩
    intro k r hk i hik hfl
    by_contra hne
    have hsort := (C24_mesh_sorted hi).2
    rcases hfl with ⟨a, ha, hfirst⟩ | ⟨a, ha, hlast⟩
    · obtain ⟨-, -, -, ⟨j, b, hb, hbf, hbs⟩, -, hlt⟩ := ended_nodes he hp ha
      have hl := abs_lt.1 (hlt k r hk hik hne)
      have := sorted_lt hsort hb ha hbf (by rw [hbs]; exact hl.1)
      exact hfirst j b this hb hbf
    · obtain ⟨-, -, ⟨j, b, hb, hbf, hbs⟩, -, -, hlt⟩ := ended_nodes he hp ha
      have hl := abs_lt.1 (hlt k r hk hik hne)
      have := sorted_lt hsort ha hb hbf.symm (by rw [hbs]; exact hl.2)
      exact hlast j b this hb hbf

/-- C27: `Mesh(Net(mat))` never raises. -/
theorem C27_mesh_of_net {m : Mat K} (h : GoodMat m) {periodic : Bool} {net : Net K} (hn : netNew m periodic = .ok net) :
    ∃ mesh, meshNew net = .ok mesh ∧ meshCheck mesh.frame = .ok () := by
  have hv : netCheck net.frame = .ok () := by
    obtain ⟨net', h1, -, h3, -⟩ := C06_netNew_ok h periodic
    rw [hn] at h1; cases h1
    exact (C14_netCheck_iff _).2 (Or.inr h3)
  obtain ⟨mesh, h1, h2⟩ := meshNew_of_ended hv (netNew_ended h hn)
  refine ⟨mesh, h1, ?_⟩
  obtain ⟨-, rfl⟩ := meshInit_ok h2
  rw [meshNew_eq hv] at h1
  cases hc : meshCheck (Mesh.frame { rows := meshRows net.rows, attrs := net.attrs }) with
  | ok u => rfl
  | error e => rw [hc] at h1; simp [Except.map] at h1

/-! ### Beam lengths -/

theorem mem_nodesOf {rows : List (MeshRow K)} {k : Int} {i : ℕ} :
    i ∈ nodesOf rows k ↔ ∃ r, rows[i]? = some r ∧ r.fiber = k := by
  unfold nodesOf
  simp only [Finset.mem_filter, Finset.mem_range]
  constructor
  · exact fun h => h.2
  · rintro ⟨r, hr, hk⟩
    exact ⟨(List.getElem?_eq_some_iff.1 hr).1, r, hr, hk⟩

/-- Beam lengths of one fiber of a sorted cyclic mesh. -/
theorem beam_sum {rows : List (MeshRow K)} (hs : NodesSorted rows) (hb : BeamsCyclic rows) {k : Int}
    {i0 i1 : ℕ} {a0 a1 : MeshRow K} (h0 : rows[i0]? = some a0) (h1 : rows[i1]? = some a1) (hk0 : a0.fiber = k)
    (hk1 : a1.fiber = k) (hlt : a0.s < a1.s) (hmin : ∀ (i : Nat) (r : MeshRow K), rows[i]? = some r → r.fiber = k → a0.s ≤ r.s)
    (hmax : ∀ (i : Nat) (r : MeshRow K), rows[i]? = some r → r.fiber = k → r.s ≤ a1.s) :
    ∑ i ∈ beamsOf rows k, beamLength rows i = a1.s - a0.s ∧ (beamsOf rows k).card + 1 = (nodesOf rows k).card ∧
      ∀ i ∈ beamsOf rows k, 0 ≤ beamLength rows i := by
  classical
  -- successor
  have hsucc : ∀ i ∈ nodesOf rows k, ∃ r, rows[i]? = some r ∧ r.beam = (succNode rows i : Int) ∧ CyclicNext rows i (succNode rows i) := by
    intro i hi
    obtain ⟨r, hr, -⟩ := mem_nodesOf.1 hi
    obtain ⟨j, hj, hc⟩ := hb i r hr
    have : succNode rows i = j := by simp [succNode, hr, hj]
    exact ⟨r, hr, by rw [this]; exact hj, by rw [this]; exact hc⟩
  have hmaps : ∀ i ∈ nodesOf rows k, succNode rows i ∈ nodesOf rows k := by
    intro i hi
    obtain ⟨r, hr, -, r', p, hr', hp, he, -⟩ := hsucc i hi
    obtain ⟨r'', hr'', hk⟩ := mem_nodesOf.1 hi
    rw [hr''] at hr'; cases hr'
    exact mem_nodesOf.2 ⟨p, hp, he.trans hk⟩
  have hinj : Set.InjOn (succNode rows) (nodesOf rows k) := by
    intro i hi j hj he
    obtain ⟨r, hr, -, hc⟩ := hsucc i hi
    obtain ⟨r', hr', -, hc'⟩ := hsucc j hj
    rw [← he] at hc'
    exact cyclicNext_inj hc hc'
  have himage : (nodesOf rows k).image (succNode rows) = nodesOf rows k := by
    apply Finset.eq_of_subset_of_card_le
    · intro j hj
      obtain ⟨i, hi, rfl⟩ := Finset.mem_image.1 hj
      exact hmaps i hi
    · rw [Finset.card_image_of_injOn hinj]
  have hzero : ∑ i ∈ nodesOf rows k, beamLength rows i = 0 := by
    simp only [beamLength, Finset.sum_sub_distrib]
    have : ∑ i ∈ nodesOf rows k, abscissa rows i = ∑ i ∈ nodesOf rows k, abscissa rows (succNode rows i) := by
      conv_lhs => rw [← himage]
      exact Finset.sum_image hinj
    rw [this, sub_self]
  -- the last node
  have hne : (nodesOf rows k).Nonempty := ⟨i0, mem_nodesOf.2 ⟨a0, h0, hk0⟩⟩
  set il := (nodesOf rows k).max' hne with hil
  have hilm : il ∈ nodesOf rows k := Finset.max'_mem _ _
  obtain ⟨al, hal, hkl⟩ := mem_nodesOf.1 hilm
  have hlast : LastOnFiber rows il := by
    refine ⟨al, hal, ?_⟩
    intro j p hj hp he
    have := Finset.le_max' _ j (mem_nodesOf.2 ⟨p, hp, he.trans hkl⟩)
    omega
  have hsl : al.s = a1.s := by
    apply le_antisymm (hmax il al hal hkl)
    exact sorted_le hs h1 hal (hk1.trans hkl.symm) (Finset.le_max' _ _ (mem_nodesOf.2 ⟨a1, h1, hk1⟩))
  obtain ⟨rl, hrl, hbl, r', pf, hr', hpf, hef, hcase⟩ := hsucc il hilm
  rw [hal] at hrl hr'; cases hrl; cases hr'
  have hfirst : FirstOnFiber rows (succNode rows il) := by
    rcases hcase with ⟨hn, -⟩ | ⟨-, hf⟩
    · exact absurd hlast hn
    · exact hf
  have hsf : pf.s = a0.s := by
    apply le_antisymm _ (hmin _ pf hpf (hef.trans hkl))
    refine sorted_le hs hpf h0 ((hef.trans hkl).trans hk0.symm) ?_
    by_contra hgt
    obtain ⟨pf', hpf', hno⟩ := hfirst
    rw [hpf] at hpf'; cases hpf'
    exact hno i0 a0 (by omega) h0 (hk0.trans (hef.trans hkl).symm)
  have hfl : succNode rows il < il := sorted_lt hs hpf hal hef (by rw [hsf, hsl]; exact hlt)
  have hmem : ∀ i, i ∈ beamsOf rows k ↔ i ∈ nodesOf rows k ∧ i ≠ il := by
    intro i
    unfold beamsOf
    rw [Finset.mem_filter]
    refine and_congr_right ?_
    intro hi
    obtain ⟨r, hr, hbr, hc⟩ := hsucc i hi
    constructor
    · rintro ⟨r', hr', hlt'⟩ rfl
      rw [hr] at hr'; cases hr'
      omega
    · intro hine
      refine ⟨r, hr, ?_⟩
      obtain ⟨x, p, hx, hp, he, ⟨-, hcs⟩ | ⟨⟨y, hy, hno⟩, -⟩⟩ := hc
      · omega
      · exfalso
        have hile : i < il := lt_of_le_of_ne (Finset.le_max' _ i hi) hine
        obtain ⟨z, hz, hzk⟩ := mem_nodesOf.1 hi
        rw [hy] at hz; cases hz
        exact hno il al hile hal (hkl.trans hzk.symm)
  have hbeams : beamsOf rows k = (nodesOf rows k).erase il := by
    ext i; rw [hmem, Finset.mem_erase]; exact and_comm
  refine ⟨?_, ?_, ?_⟩
  · rw [hbeams]
    have := Finset.sum_erase_add (nodesOf rows k) (beamLength rows) hilm
    rw [hzero] at this
    have e : beamLength rows il = a0.s - a1.s := by
      simp only [beamLength, abscissa, hal, hpf, Option.map_some, Option.getD_some, hsf, hsl]
    rw [e] at this
    linarith
  · rw [hbeams, Finset.card_erase_of_mem hilm]
    have := Finset.card_pos.2 hne
    omega
  · intro i hi
    obtain ⟨hi1, hi2⟩ := (hmem i).1 hi
    obtain ⟨r, hr, hbr, x, p, hx, hp, he, -⟩ := hsucc i hi1
    rw [hr] at hx; cases hx
    unfold beamsOf at hi
    obtain ⟨-, r', hr', hlt'⟩ := Finset.mem_filter.1 hi
    rw [hr] at hr'; cases hr'
    simp only [beamLength, abscissa, hr, hp, Option.map_some, Option.getD_some]
    exact sub_nonneg.2 (sorted_le hs hr hp he.symm (by omega))

theorem beams_of_ended {net : Net K} {half : Int → K} (he : Ended net.rows half) {mesh : Mesh K}
    (hi : meshInit net = .ok mesh) {i : Nat} {a : MeshRow K} (ha : mesh.rows[i]? = some a) :
    ∑ j ∈ beamsOf mesh.rows a.fiber, beamLength mesh.rows j = 2 * half a.fiber ∧
      (beamsOf mesh.rows a.fiber).card + 1 = (nodesOf mesh.rows a.fiber).card ∧
      ∀ j ∈ beamsOf mesh.rows a.fiber, 0 ≤ beamLength mesh.rows j := by
  obtain ⟨place, hp⟩ := C26_constraints hi
  obtain ⟨-, hpos, ⟨j1, b1, hb1, hf1, hs1⟩, ⟨j0, b0, hb0, hf0, hs0⟩, -⟩ := ended_nodes he hp ha
  have hbd : ∀ (j : Nat) r, mesh.rows[j]? = some r → r.fiber = a.fiber → |r.s| ≤ half a.fiber := by
    intro j r hr hf
    have := (ended_nodes he hp hr).1
    rwa [hf] at this
  have := beam_sum (C24_mesh_sorted hi).2 (C25_beams_cyclic hi) hb0 hb1 hf0 hf1 (by rw [hs0, hs1]; linarith)
    (fun j r hr hf => by rw [hs0]; exact (abs_le.1 (hbd j r hr hf)).1)
    (fun j r hr hf => by rw [hs1]; exact (abs_le.1 (hbd j r hr hf)).2)
  rw [hs0, hs1] at this
  refine ⟨?_, this.2⟩
  rw [this.1]; ring

/-- C29: the beams of each fiber add up to its length. -/
theorem C29_beam_lengths {m : Mat K} (h : GoodMat m) {periodic : Bool} {net : Net K} {mesh : Mesh K}
    (hn : netNew m periodic = .ok net) (hm : meshNew net = .ok mesh) {k : Nat} {f : Fiber K} (hf : m.fibers[k]? = some f) :
    ∑ i ∈ beamsOf mesh.rows k, beamLength mesh.rows i = f.l ∧
      (beamsOf mesh.rows k).card + 1 = (nodesOf mesh.rows k).card ∧
      ∀ i ∈ beamsOf mesh.rows k, 0 ≤ beamLength mesh.rows i := by
  have hv : netCheck net.frame = .ok () := by
    obtain ⟨net', h1, -, h3, -⟩ := C06_netNew_ok h periodic
    rw [hn] at h1; cases h1
    exact (C14_netCheck_iff _).2 (Or.inr h3)
  have he := netNew_ended h hn
  obtain ⟨mesh', h1, h2⟩ := meshNew_of_ended hv he
  rw [hm] at h1; cases h1
  obtain ⟨q, r, hr, hA, hB, -⟩ := C07_end_row h hn hf
  obtain ⟨place, hp⟩ := C26_constraints h2
  obtain ⟨a, ha, ha1, -⟩ := hp.endA q r hr
  have := beams_of_ended he h2 ha
  rw [ha1.fiber, hA] at this
  have e : 2 * halfLength m (k : Int) = f.l := by simp [halfLength, hf]; ring
  rw [e] at this
  exact this

/-! ### Concrete case -/

/-- C27, C29 apply to `crossMat`: fiber 0 has four nodes. -/
example : ∃ net mesh, netNew crossMat true = .ok net ∧ meshNew net = .ok mesh ∧
    ∑ i ∈ beamsOf mesh.rows 0, beamLength mesh.rows i = 10 := by
  obtain ⟨net, hn, -⟩ := C06_netNew_ok crossMat_good true
  obtain ⟨mesh, hm, -⟩ := C27_mesh_of_net crossMat_good hn
  exact ⟨net, mesh, hn, hm, (C29_beam_lengths crossMat_good hn hm (k := 0) rfl).1⟩

end Fibermat
