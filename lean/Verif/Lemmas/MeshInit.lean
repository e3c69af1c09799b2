import Verif.Props.FrameChecks
import Verif.Spec.MeshInit

/-! Lemmas on `Mesh.init`. -/

namespace Fibermat
open Spec
variable {K : Type}

theorem argsort_getD {p : List Nat} {N : Nat} (hp : p.Perm (List.range N)) (i : Nat) (hi : i < p.length) :
    (argsort p).getD p[i] 0 = i := by
  have hN : p.length = N := by simpa using hp.length_eq
  have hnd : p.Nodup := hp.nodup_iff.2 List.nodup_range
  set S := p.zipIdx.insertionSort (fun a b => a.1 ≤ b.1) with hS
  have hperm : S.Perm p.zipIdx := List.perm_insertionSort _ _
  have hsorted : (S.map Prod.fst).Pairwise (· ≤ ·) := by
    rw [List.pairwise_map]
    have : Std.Total (fun a b : Nat × Nat => a.1 ≤ b.1) := ⟨fun a b => le_total _ _⟩
    have : IsTrans (Nat × Nat) (fun a b : Nat × Nat => a.1 ≤ b.1) := ⟨fun a b c => le_trans⟩
    exact List.pairwise_insertionSort _ _
  have hfst : S.map Prod.fst = List.range N := by
    apply List.Perm.eq_of_pairwise' hsorted (List.pairwise_le_range)
    refine (hperm.map Prod.fst).trans ?_
    rw [zipIdx_map_fst']
    exact hp
  have hlt : p[i] < N := by
    have := hp.subset (List.getElem_mem hi); simpa using this
  have hSlen : S.length = N := by rw [hperm.length_eq, List.length_zipIdx, hN]
  have hget : S[p[i]]? = some (S[p[i]]'(by omega)) := List.getElem?_eq_getElem _
  set e := S[p[i]]'(by omega) with he
  have he1 : e.1 = p[i] := by
    have := congrArg (fun t => t[p[i]]?) hfst
    simp only [List.getElem?_map, hget] at this
    simpa [hlt] using this
  have hmem : e ∈ p.zipIdx := hperm.subset (List.getElem_mem _)
  have he2 : p[e.2]? = some e.1 := by
    rw [List.mem_zipIdx_iff_getElem?] at hmem; exact hmem
  have he3 : e.2 = i := by
    obtain ⟨h2, h3⟩ := List.getElem?_eq_some_iff.1 he2
    exact (hnd.getElem_inj_iff).1 (h3.trans he1)
  unfold argsort
  rw [← hS, List.getD_eq_getElem?_getD, List.getElem?_map, hget]
  simpa using he3

theorem zip_some {α β : Type} {l1 : List α} {l2 : List β} {i : Nat} {a : α} {b : β} (h1 : l1[i]? = some a)
    (h2 : l2[i]? = some b) : (l1.zip l2)[i]? = some (a, b) :=
  List.getElem?_zip_eq_some.2 ⟨h1, h2⟩

theorem flatMap_pair_even {α β : Type} (f g : α → β) (l : List α) (k : Nat) :
    (l.flatMap (fun r => [f r, g r]))[2 * k]? = (l[k]?).map f := by
  induction l generalizing k with
  | nil => simp
  | cons a t ih =>
    cases k with
    | zero => simp
    | succ k =>
      rw [List.flatMap_cons, show 2 * (k + 1) = 2 * k + 2 from by ring]
      simpa using ih k

theorem flatMap_pair_odd {α β : Type} (f g : α → β) (l : List α) (k : Nat) :
    (l.flatMap (fun r => [f r, g r]))[2 * k + 1]? = (l[k]?).map g := by
  induction l generalizing k with
  | nil => simp
  | cons a t ih =>
    cases k with
    | zero => simp
    | succ k =>
      rw [List.flatMap_cons, show 2 * (k + 1) + 1 = (2 * k + 1) + 2 from by ring]
      simpa using ih k

theorem flatMap_pair_length {α β : Type} (f g : α → β) (l : List α) :
    (l.flatMap (fun r => [f r, g r])).length = 2 * l.length := by
  induction l with
  | nil => simp
  | cons a t ih => rw [List.flatMap_cons, List.length_append, ih]; simp; ring

def nodeA (r : NetRow K) : Node K := ⟨r.A, r.sA, r.xA, r.yA, r.zA⟩
def nodeB (r : NetRow K) : Node K := ⟨r.B, r.sB, r.xB, r.yB, r.zB⟩

theorem meshNodes_eq (net : List (NetRow K)) : meshNodes net = net.flatMap (fun r => [nodeA r, nodeB r]) := rfl

theorem swapLabels_length (m : Nat) : (swapLabels m).length = 2 * m := by
  unfold swapLabels; rw [flatMap_pair_length]; simp

theorem rawNodes_length (net : List (NetRow K)) : (rawNodes net).length = 2 * net.length := by
  have : (meshNodes net).length = 2 * net.length := by rw [meshNodes_eq, flatMap_pair_length]
  simp [rawNodes, this, swapLabels_length]

theorem rawNodes_even (net : List (NetRow K)) (k : Nat) :
    (rawNodes net)[2 * k]? = (net[k]?).map (fun r => ⟨2 * k, 2 * k + 1, nodeA r⟩) := by
  by_cases h : k < net.length
  · unfold rawNodes
    rw [List.getElem?_map, zip_some (a := (nodeA net[k], 2 * k)) (b := 2 * k + 1)]
    · simp [h]
    · rw [List.getElem?_zipIdx, meshNodes_eq, flatMap_pair_even]; simp [h]
    · unfold swapLabels; rw [flatMap_pair_even]; simp [h]
  · rw [List.getElem?_eq_none_iff.2 (by rw [rawNodes_length]; omega), List.getElem?_eq_none_iff.2 (by omega)]
    rfl

theorem rawNodes_odd (net : List (NetRow K)) (k : Nat) :
    (rawNodes net)[2 * k + 1]? = (net[k]?).map (fun r => ⟨2 * k + 1, 2 * k, nodeB r⟩) := by
  by_cases h : k < net.length
  · unfold rawNodes
    rw [List.getElem?_map, zip_some (a := (nodeB net[k], 2 * k + 1)) (b := 2 * k)]
    · simp [h]
    · rw [List.getElem?_zipIdx, meshNodes_eq, flatMap_pair_odd]; simp [h]
    · unfold swapLabels; rw [flatMap_pair_odd]; simp [h]
  · rw [List.getElem?_eq_none_iff.2 (by rw [rawNodes_length]; omega), List.getElem?_eq_none_iff.2 (by omega)]
    rfl

theorem rawNodes_labels (net : List (NetRow K)) : (rawNodes net).map (·.label) = List.range (2 * net.length) := by
  apply List.ext_getElem?
  intro q
  rw [List.getElem?_map]
  obtain ⟨k, rfl | rfl⟩ := Nat.even_or_odd' q
  · rw [rawNodes_even]
    by_cases h : k < net.length
    · simp [h]
    · rw [List.getElem?_eq_none_iff.2 (by omega), List.getElem?_eq_none_iff.2 (by simp; omega)]; rfl
  · rw [rawNodes_odd]
    by_cases h : k < net.length
    · rw [List.getElem?_range (by omega)]; simp [h]
    · rw [List.getElem?_eq_none_iff.2 (by omega), List.getElem?_eq_none_iff.2 (by simp; omega)]; rfl

section
variable [LinearOrder K] (net : List (NetRow K))

theorem sortNodes_perm : (sortNodes (rawNodes net)).Perm (rawNodes net) := List.perm_insertionSort _ _

theorem sortNodes_length : (sortNodes (rawNodes net)).length = 2 * net.length := by
  rw [(sortNodes_perm net).length_eq, rawNodes_length]

theorem sortNodes_labels : ((sortNodes (rawNodes net)).map (·.label)).Perm (List.range (2 * net.length)) := by
  rw [← rawNodes_labels]; exact (sortNodes_perm net).map _

theorem sortNodes_sorted : (sortNodes (rawNodes net)).Pairwise
    (fun a b => fsLe (a.node.fiber, a.node.s) (b.node.fiber, b.node.s)) := by
  unfold sortNodes
  have := fsTotal (fun a : RawNode K => (a.node.fiber, a.node.s))
  have := fsTrans (fun a : RawNode K => (a.node.fiber, a.node.s))
  exact List.pairwise_insertionSort _ _

theorem sortNodes_fsorted : (sortNodes (rawNodes net)).Pairwise (fun a b => a.node.fiber ≤ b.node.fiber) :=
  (sortNodes_sorted net).imp (by rintro a b (h | h); exacts [le_of_lt h, le_of_eq h.1])

/-- The position of the node of a given label in the sorted mesh. -/
def position (k : Nat) : Nat := (argsort ((sortNodes (rawNodes net)).map (·.label))).getD k 0

theorem position_label {i : Nat} {r : RawNode K} (h : (sortNodes (rawNodes net))[i]? = some r) :
    position net r.label = i := by
  obtain ⟨hi, rfl⟩ := List.getElem?_eq_some_iff.1 h
  have := argsort_getD (sortNodes_labels net) i (by simpa using hi)
  simpa [position] using this

theorem position_raw {k : Nat} {r : RawNode K} (h : (rawNodes net)[k]? = some r) :
    r.label = k ∧ (sortNodes (rawNodes net))[position net k]? = some r := by
  have hlab : r.label = k := by
    have := congrArg (fun t => t[k]?) (rawNodes_labels net)
    simp only [List.getElem?_map, h] at this
    obtain ⟨hk, -⟩ := List.getElem?_eq_some_iff.1 h
    rw [rawNodes_length] at hk
    rw [List.getElem?_range hk] at this
    simpa using this
  refine ⟨hlab, ?_⟩
  have hmem : r ∈ sortNodes (rawNodes net) :=
    (sortNodes_perm net).mem_iff.2 (List.mem_of_getElem? h)
  obtain ⟨i, hi⟩ := List.mem_iff_getElem?.1 hmem
  have := position_label net hi
  rw [hlab] at this
  rw [this]; exact hi

theorem find_range_zip {α : Type} (S : List α) (c : Nat) (h : c < S.length) :
    ((List.range S.length).zip S).find? (fun p => decide (p.1 = c)) = some (c, S[c]) := by
  rcases hf : ((List.range S.length).zip S).find? (fun p => decide (p.1 = c)) with _ | p
  · rw [List.find?_eq_none] at hf
    have : (c, S[c]) ∈ (List.range S.length).zip S := by
      rw [List.mem_iff_getElem?]
      refine ⟨c, List.getElem?_zip_eq_some.2 ⟨by simp [h], by simp [h]⟩⟩
    have := hf _ this
    simp at this
  · have h1 := List.find?_some hf
    have h2 := List.mem_of_find?_eq_some hf
    obtain ⟨i, hi⟩ := List.mem_iff_getElem?.1 h2
    obtain ⟨h3, h4⟩ := List.getElem?_zip_eq_some.1 hi
    obtain ⟨hlt, h5⟩ := List.getElem?_eq_some_iff.1 h4
    rw [List.getElem?_range hlt] at h3
    simp only [decide_eq_true_eq] at h1
    simp only [Option.some.injEq] at h3
    obtain ⟨p1, p2⟩ := p
    simp only at h1 h3 h5
    subst h1
    subst h3
    rw [hf, h5]

/-- `mesh.index` after reordering is `0..m-1`. -/
theorem newIndex_eq : ((sortNodes (rawNodes net)).map (·.label)).map
    (fun k => (argsort ((sortNodes (rawNodes net)).map (·.label))).getD k 0) =
      List.range (sortNodes (rawNodes net)).length := by
  apply List.ext_getElem?
  intro i
  by_cases hi : i < (sortNodes (rawNodes net)).length
  · rw [List.getElem?_range hi, List.map_map, List.getElem?_map, List.getElem?_eq_getElem hi]
    have := position_label net (List.getElem?_eq_getElem hi)
    simpa [position] using this
  · rw [List.getElem?_eq_none_iff.2 (by simp; omega), List.getElem?_eq_none_iff.2 (by simp; omega)]

theorem meshRows_length : (meshRows net).length = 2 * net.length := by
  unfold meshRows
  simp [rolled_length _ _ _ (sortNodes_fsorted net), sortNodes_length]

/-- Row `i` of the mesh in terms of the sorted nodes. -/
theorem meshRows_getElem? {i : Nat} {r p : RawNode K} (hr : (sortNodes (rawNodes net))[i]? = some r)
    (hp : (sortNodes (rawNodes net))[position net r.constraint]? = some p) :
    (meshRows net)[i]? = some
      { fiber := r.node.fiber, s := r.node.s, x := r.node.x, y := r.node.y, z := r.node.z
        beam := (nextIdx (fun r : RawNode K => r.node.fiber) (sortNodes (rawNodes net)) i : Nat)
        constraint := ((if r.node.fiber = p.node.fiber then i else position net r.constraint : Nat) : Int) } := by
  obtain ⟨hi, hri⟩ := List.getElem?_eq_some_iff.1 hr
  obtain ⟨hq, hpq⟩ := List.getElem?_eq_some_iff.1 hp
  have hbeam : (rolled (fun r : RawNode K => r.node.fiber) (·.label) (sortNodes (rawNodes net)))[i]? =
      ((sortNodes (rawNodes net))[nextIdx (fun r : RawNode K => r.node.fiber) (sortNodes (rawNodes net)) i]?).map (·.label) :=
    rolled_getElem? _ _ _ (sortNodes_fsorted net) i hi
  have hnext : nextIdx (fun r : RawNode K => r.node.fiber) (sortNodes (rawNodes net)) i < (sortNodes (rawNodes net)).length := by
    unfold nextIdx
    split
    · rename_i h; exact h.1
    · rw [List.findIdx_lt_length]
      exact ⟨_, List.getElem_mem hi, by simp [hi]⟩
  set j := nextIdx (fun r : RawNode K => r.node.fiber) (sortNodes (rawNodes net)) i with hj
  have hposj := position_label net (List.getElem?_eq_getElem hnext)
  rw [List.getElem?_eq_getElem hnext, Option.map_some] at hbeam
  unfold meshRows
  simp only [newIndex_eq]
  rw [List.getElem?_map, zip_some hr (b := (i, j, position net r.constraint))]
  · simp only [Option.map_some, Option.some.injEq]
    have hfind := find_range_zip (sortNodes (rawNodes net)) (position net r.constraint) hq
    rw [hfind]
    simp only [Option.map_some, Option.some.injEq, hpq, Nat.cast_ite]
  · refine zip_some (by simp [hi]) (zip_some ?_ ?_)
    · rw [List.getElem?_map, hbeam]; simpa [position] using hposj
    · rw [List.getElem?_map, hr]; rfl

/-- Any node has a partner. -/
theorem partner_exists {i : Nat} {r : RawNode K} (hr : (sortNodes (rawNodes net))[i]? = some r) :
    ∃ p, (sortNodes (rawNodes net))[position net r.constraint]? = some p ∧ p.label = r.constraint ∧
      p.constraint = r.label ∧ (rawNodes net)[r.label]? = some r := by
  have hmem : r ∈ rawNodes net := (sortNodes_perm net).mem_iff.1 (List.mem_of_getElem? hr)
  obtain ⟨k, hk⟩ := List.mem_iff_getElem?.1 hmem
  have hlab := (position_raw net hk).1
  have hk' : (rawNodes net)[r.label]? = some r := by rw [hlab]; exact hk
  obtain ⟨m, rfl | rfl⟩ := Nat.even_or_odd' k
  · have hlt : m < net.length := by
      obtain ⟨h', -⟩ := List.getElem?_eq_some_iff.1 hk; rw [rawNodes_length] at h'; omega
    rw [rawNodes_even, List.getElem?_eq_getElem hlt, Option.map_some, Option.some.injEq] at hk
    have ho := rawNodes_odd net m
    rw [List.getElem?_eq_getElem hlt, Option.map_some] at ho
    subst hk
    exact ⟨_, (position_raw net ho).2, rfl, rfl, hk'⟩
  · have hlt : m < net.length := by
      obtain ⟨h', -⟩ := List.getElem?_eq_some_iff.1 hk; rw [rawNodes_length] at h'; omega
    rw [rawNodes_odd, List.getElem?_eq_getElem hlt, Option.map_some, Option.some.injEq] at hk
    have ho := rawNodes_even net m
    rw [List.getElem?_eq_getElem hlt, Option.map_some] at ho
    subst hk
    exact ⟨_, (position_raw net ho).2, rfl, rfl, hk'⟩

end
end Fibermat
