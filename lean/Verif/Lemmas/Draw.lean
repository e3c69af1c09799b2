import Verif.Spec.Draw
import Verif.Props.MeshInit

/-! # Lemmas on the drawing of a mesh -/

set_option linter.unusedSectionVars false

namespace Fibermat
open Spec
variable {K : Type} [LinearOrder K]

theorem ilocAt_ok {α : Type} {rows : List α} {k : Int} {r : α} (h0 : 0 ≤ k) (h : rows[k.toNat]? = some r) : ilocAt rows k = .ok r := by
  unfold ilocAt
  rw [if_pos h0, h]

/-- The loop when no access fails. -/
theorem draw_fold (rows : List (MeshRow K)) (nb nc : MeshRow K → MeshRow K) : ∀ (l : List (MeshRow K)) (P : MeshPicture K),
    (∀ r ∈ l, ilocAt rows r.beam = .ok (nb r) ∧ ilocAt rows r.constraint = .ok (nc r)) →
    l.foldlM (drawNode rows) P = .ok
      ⟨P.beams ++ l.filterMap (fun r => if r.s < (nb r).s then some (r.pos, (nb r).pos, r.fiber % 10) else none),
       P.contacts ++ l.filterMap (fun r => if r.z < (nc r).z then some (r.pos, (nc r).pos) else none),
       P.ends ++ l.filterMap (fun r => if r.fiber = (nc r).fiber then some (r.pos, (nc r).pos) else none)⟩ := by
  intro l
  induction l with
  | nil => intro P _; simp [pure, Except.pure]
  | cons r t ih =>
    intro P h
    obtain ⟨h1, h2⟩ := h r (by simp)
    rw [List.foldlM_cons]
    have : drawNode rows P r = .ok
        { beams := if r.s < (nb r).s then P.beams ++ [(r.pos, (nb r).pos, r.fiber % 10)] else P.beams
          contacts := if r.z < (nc r).z then P.contacts ++ [(r.pos, (nc r).pos)] else P.contacts
          ends := if r.fiber = (nc r).fiber then P.ends ++ [(r.pos, (nc r).pos)] else P.ends } := by
      unfold drawNode
      rw [h1, h2]
      rfl
    rw [this]
    simp only [Bind.bind, Except.bind]
    rw [ih _ (fun q hq => h q (by simp [hq]))]
    congr 1
    simp only [List.filterMap_cons, MeshPicture.mk.injEq]
    refine ⟨?_, ?_, ?_⟩ <;> split_ifs <;> simp

theorem rows_range {α : Type} (l : List α) : (List.range l.length).filterMap (fun i => l[i]?) = l := by
  induction l with
  | nil => rfl
  | cons a t ih =>
    rw [List.length_cons, List.range_succ_eq_map, List.filterMap_cons, List.filterMap_map]
    simp only [List.getElem?_cons_zero, Function.comp_def, Nat.succ_eq_add_one, List.getElem?_cons_succ, ih]

theorem filterMap_range {α β : Type} (l : List α) (g : α → Option β) :
    l.filterMap g = (List.range l.length).filterMap (fun i => (l[i]?).bind g) := by
  conv_lhs => rw [← rows_range l, List.filterMap_filterMap]

theorem zip_tail {α β : Type} (f : α × α → Option β) : ∀ l : List α, (l.zip l.tail).filterMap f =
    (List.range l.length).filterMap (fun i => (l[i]?).bind (fun a => (l[i + 1]?).bind (fun b => f (a, b)))) := by
  intro l
  induction l with
  | nil => rfl
  | cons a t ih =>
    rw [List.length_cons, List.range_succ_eq_map, List.filterMap_cons, List.filterMap_map]
    simp only [List.getElem?_cons_zero, Function.comp_def, Nat.succ_eq_add_one, List.getElem?_cons_succ, ← ih, Nat.zero_add, List.tail_cons,
      Option.bind_some]
    cases t with
    | nil => simp
    | cons b t => simp [List.filterMap_cons]

theorem range_double (n : ℕ) : List.range (2 * n) = (List.range n).flatMap (fun k => [2 * k, 2 * k + 1]) := by
  induction n with
  | zero => rfl
  | succ n ih =>
    rw [show 2 * (n + 1) = 2 * n + 1 + 1 by ring, List.range_succ, List.range_succ, ih, List.range_succ, List.flatMap_append]
    simp

theorem filterMap_flatMap {α β γ : Type} (l : List α) (g : α → List β) (f : β → Option γ) :
    (l.flatMap g).filterMap f = l.flatMap (fun a => (g a).filterMap f) := by
  induction l with
  | nil => rfl
  | cons a t ih => rw [List.flatMap_cons, List.filterMap_append, ih, List.flatMap_cons]

theorem flatMap_range {α β : Type} (l : List α) (g : α → List β) :
    l.flatMap g = (List.range l.length).flatMap (fun k => ((l[k]?).map g).getD []) := by
  induction l with
  | nil => rfl
  | cons a t ih =>
    rw [List.length_cons, List.range_succ_eq_map, List.flatMap_cons, List.flatMap_cons, List.flatMap_map, ih]
    simp

/-- Going through the nodes is going through the ends of the connections. -/
theorem placement_filterMap {net : List (NetRow K)} {rows : List (MeshRow K)} {place : ℕ → ℕ} (h : Placement net rows place)
    {β : Type} (g : MeshRow K → Option β) (G : NetRow K → List β)
    (hG : ∀ (k : ℕ) (r : NetRow K) (a b : MeshRow K), net[k]? = some r → rows[place (2 * k)]? = some a → rows[place (2 * k + 1)]? = some b →
      (g a).toList ++ (g b).toList = G r) :
    (rows.filterMap g).Perm (net.flatMap G) := by
  have hperm : ((List.range (2 * net.length)).map place).Perm (List.range rows.length) := by
    apply (List.perm_ext_iff_of_nodup ?_ List.nodup_range).2
    · intro i
      rw [List.mem_map, List.mem_range]
      constructor
      · rintro ⟨q, hq, rfl⟩; exact h.inRange q (List.mem_range.1 hq)
      · intro hi
        obtain ⟨q, hq, e⟩ := placement_surj h hi
        exact ⟨q, List.mem_range.2 hq, e⟩
    · rw [List.nodup_map_iff_inj_on List.nodup_range]
      intro a ha b hb
      exact h.inj a b (List.mem_range.1 ha) (List.mem_range.1 hb)
  rw [filterMap_range]
  refine (hperm.symm.filterMap _).trans ?_
  rw [List.filterMap_map, range_double, filterMap_flatMap, flatMap_range net G]
  apply List.Perm.of_eq
  apply List.flatMap_congr
  intro k hk
  have hk' := List.mem_range.1 hk
  have hr : net[k]? = some net[k] := List.getElem?_eq_getElem hk'
  obtain ⟨a, ha, -⟩ := h.endA k _ hr
  obtain ⟨b, hb, -⟩ := h.endB k _ hr
  have := hG k _ a b hr ha hb
  rw [hr]
  simp only [Option.map_some, Option.getD_some, ← this, List.filterMap_cons, Function.comp, ha, hb, Option.bind_some, List.filterMap_nil]
  cases g a <;> cases g b <;> rfl

end Fibermat
