import Verif.Spec.AttrsHeap
import Mathlib.Data.List.Basic
import Mathlib.Data.List.GetD
import Mathlib.Data.List.Induction

/-! # C60: attribute dictionaries -/

namespace Fibermat
open Spec
variable {V : Type}

theorem writes_other (h : Heap V) (a b : Nat) (hab : b ≠ a) (ws : List (String × V)) : (writes h a ws).dict b = h.dict b := by
  induction ws generalizing h with
  | nil => rfl
  | cons w ws ih =>
    simp only [writes, List.foldl_cons] at ih ⊢
    rw [ih]
    simp [Heap.write, hab]

/-- C60: `Net(mat)` makes a new dictionary with the entries of the mat and `periodic`; building it and any later write to it leave
every other dictionary as it was, and writes to `mat.attrs` do not reach the net. -/
theorem C60_net (h : Heap V) {mat : Nat} (hm : mat < h.size) (p : V) :
    (∀ ws, ∀ b < h.size, (writes (netAttrs h mat p).1 (netAttrs h mat p).2 ws).dict b = h.dict b) ∧
    (∀ ws, ∀ b < h.size, (writes (netAttrs h mat p).1 b ws).dict (netAttrs h mat p).2 =
      (netAttrs h mat p).1.dict (netAttrs h mat p).2) ∧
    (netAttrs h mat p).1.dict (netAttrs h mat p).2 "periodic" = some p ∧
    (∀ key, key ≠ "periodic" → (netAttrs h mat p).1.dict (netAttrs h mat p).2 key = h.dict mat key) := by
  refine ⟨fun ws b hb => ?_, fun ws b hb => ?_, ?_, ?_⟩
  · rw [writes_other _ _ _ (by simp only [netAttrs, wrap, Heap.copy]; omega)]
    have hne : b ≠ h.size := by omega
    simp only [netAttrs, wrap, Heap.copy, Heap.write]
    simp only [hne, if_false]
  · rw [writes_other _ _ _ (by simp only [netAttrs, wrap, Heap.copy]; omega)]
  · simp [netAttrs, wrap, Heap.copy, Heap.write]
  · intro key hk
    simp [netAttrs, wrap, Heap.copy, Heap.write, hk]

/-- C60: `Mesh(net)` makes a new dictionary, equal to that of the net. -/
theorem C60_mesh (h : Heap V) {net : Nat} (hm : net < h.size) :
    (∀ ws, ∀ b < h.size, (writes (meshAttrs h net).1 (meshAttrs h net).2 ws).dict b = h.dict b) ∧
    (∀ ws, ∀ b < h.size, (writes (meshAttrs h net).1 b ws).dict (meshAttrs h net).2 =
      (meshAttrs h net).1.dict (meshAttrs h net).2) ∧
    (meshAttrs h net).1.dict (meshAttrs h net).2 = h.dict net := by
  refine ⟨fun ws b hb => ?_, fun ws b hb => ?_, ?_⟩
  · rw [writes_other _ _ _ (by simp only [meshAttrs, wrap, Heap.copy]; omega)]
    have hne : b ≠ h.size := by omega
    simp only [meshAttrs, wrap, Heap.copy]
    simp only [hne, if_false]
  · rw [writes_other _ _ _ (by simp only [meshAttrs, wrap, Heap.copy]; omega)]
  · simp [meshAttrs, wrap, Heap.copy]

/-- C60: `Mat(mat)`, `Net(net)`, `Mesh(mesh)` and `Stack(net)` share the dictionary: a write through the result is read from
the argument, and the other way round. -/
theorem C60_wrap (h : Heap V) (a : Nat) (key : String) (v : V) :
    ((wrap h a).1.write (wrap h a).2 key v).dict a key = some v ∧
    ((wrap h a).1.write a key v).dict (wrap h a).2 key = some v := by
  simp [wrap, Heap.write]

/-- Facts kept by every program. -/
structure Inv (s : Prog V) (own : List Nat) : Prop where
  length : s.objs.length = own.length
  alloc : ∀ a ∈ s.objs, a < s.heap.size
  named : ∀ o ∈ own, o < own.length
  share : ∀ i j, i < own.length → j < own.length → (s.objs.getD i 0 = s.objs.getD j 0 ↔ own.getD i 0 = own.getD j 0)

theorem getD_mem {α : Type} {l : List α} {i : Nat} {d : α} (h : i < l.length) : l.getD i d ∈ l := by
  rw [List.getD_eq_getElem?_getD, List.getElem?_eq_getElem h]
  exact List.getElem_mem h

theorem Inv.push_new {s : Prog V} {own : List Nat} (h : Inv s own) {heap : Heap V} {a : Nat} (ha : s.heap.size ≤ a)
    (hs : a < heap.size) : Inv ⟨heap, s.objs ++ [a]⟩ (own ++ [own.length]) := by
  refine ⟨by simp [h.length], ?_, ?_, ?_⟩
  · intro b hb
    rcases List.mem_append.1 hb with hb | hb
    · have := h.alloc b hb; simp only; omega
    · simp only [List.mem_singleton] at hb; subst hb; exact hs
  · intro o ho
    rcases List.mem_append.1 ho with ho | ho
    · have := h.named o ho; simp only [List.length_append, List.length_singleton]; omega
    · simp only [List.mem_singleton] at ho; subst ho; simp
  · intro i j hi hj
    simp only [List.length_append, List.length_singleton] at hi hj
    have hl := h.length
    have e1 : ∀ k, k < own.length → (s.objs ++ [a]).getD k 0 = s.objs.getD k 0 := by
      intro k hk; rw [List.getD_append _ _ _ _ (by omega)]
    have e2 : ∀ k, k < own.length → (own ++ [own.length]).getD k 0 = own.getD k 0 := by
      intro k hk; rw [List.getD_append _ _ _ _ (by omega)]
    have e3 : (s.objs ++ [a]).getD own.length 0 = a := by
      rw [List.getD_append_right _ _ _ _ (by omega)]; simp [hl]
    have e4 : (own ++ [own.length]).getD own.length 0 = own.length := by
      rw [List.getD_append_right _ _ _ _ (by omega)]; simp
    have hlt : ∀ k, k < own.length → s.objs.getD k 0 < a ∧ own.getD k 0 < own.length := by
      intro k hk
      exact ⟨lt_of_lt_of_le (h.alloc _ (getD_mem (by omega))) ha, h.named _ (getD_mem hk)⟩
    rcases (by omega : i < own.length ∨ i = own.length) with hi' | rfl <;>
      rcases (by omega : j < own.length ∨ j = own.length) with hj' | rfl
    · rw [e1 i hi', e1 j hj', e2 i hi', e2 j hj']; exact h.share i j hi' hj'
    · rw [e1 i hi', e2 i hi', e3, e4]
      have := hlt i hi'; constructor <;> intro <;> omega
    · rw [e1 j hj', e2 j hj', e3, e4]
      have := hlt j hj'; constructor <;> intro <;> omega
    · simp

theorem Inv.push_same {s : Prog V} {own : List Nat} (h : Inv s own) {k : Nat} (hk : k < own.length) :
    Inv ⟨s.heap, s.objs ++ [s.objs.getD k 0]⟩ (own ++ [own.getD k 0]) := by
  have hl := h.length
  refine ⟨by simp [h.length], ?_, ?_, ?_⟩
  · intro b hb
    rcases List.mem_append.1 hb with hb | hb
    · exact h.alloc b hb
    · rw [List.mem_singleton] at hb; rw [hb]; exact h.alloc _ (getD_mem (by omega))
  · intro o ho
    rcases List.mem_append.1 ho with ho | ho
    · have := h.named o ho; simp only [List.length_append, List.length_singleton]; omega
    · rw [List.mem_singleton] at ho; rw [ho]
      have := h.named _ (getD_mem (d := 0) hk); simp only [List.length_append, List.length_singleton]; omega
  · have f1 : ∀ i, i < own.length + 1 → (s.objs ++ [s.objs.getD k 0]).getD i 0 = s.objs.getD (if i < own.length then i else k) 0 := by
      intro i hi
      split_ifs with h'
      · rw [List.getD_append _ _ _ _ (by omega)]
      · rw [List.getD_append_right _ _ _ _ (by omega), show i - s.objs.length = 0 by omega]; simp
    have f2 : ∀ i, i < own.length + 1 → (own ++ [own.getD k 0]).getD i 0 = own.getD (if i < own.length then i else k) 0 := by
      intro i hi
      split_ifs with h'
      · rw [List.getD_append _ _ _ _ (by omega)]
      · rw [List.getD_append_right _ _ _ _ (by omega), show i - own.length = 0 by omega]; simp
    intro i j hi hj
    simp only [List.length_append, List.length_singleton] at hi hj
    rw [f1 i hi, f1 j hj, f2 i hi, f2 j hj]
    exact h.share _ _ (by split_ifs <;> omega) (by split_ifs <;> omega)

/-- Owners after one more statement. -/
theorem owners_snoc (l : List (Stmt V)) (st : Stmt V) : owners (l ++ [st]) = (match st with
    | .wrap i => owners l ++ [(owners l).getD i 0]
    | .write _ _ _ => owners l
    | _ => owners l ++ [(owners l).length]) := by
  simp only [owners, List.foldl_append, List.foldl_cons, List.foldl_nil]
  cases st <;> rfl

theorem exec_inv {s : Prog V} {l : List (Stmt V)} (h : Inv s (owners l)) {st : Stmt V} (hok : st.Ok (owners l).length) :
    Inv (exec s st) (owners (l ++ [st])) := by
  rw [owners_snoc]
  cases st with
  | mat n size => exact h.push_new (le_refl s.heap.size) (by simp [matAttrs, wrap, Heap.fresh, Heap.write])
  | net i p => exact h.push_new (le_refl s.heap.size) (by simp [netAttrs, wrap, Heap.copy, Heap.write])
  | mesh i => exact h.push_new (le_refl s.heap.size) (by simp [meshAttrs, wrap, Heap.copy])
  | stack i p t =>
    cases t with
    | false => exact h.push_new (a := (stackAttrs s.heap (s.objs.getD i 0) p false).2) (le_refl s.heap.size)
                 (by simp [stackAttrs, netAttrs, wrap, Heap.copy, Heap.write])
    | true => exact h.push_new (a := (stackAttrs s.heap (s.objs.getD i 0) p true).2) (Nat.le_succ s.heap.size)
                 (by simp [stackAttrs, netAttrs, wrap, Heap.copy, Heap.write])
  | wrap i => exact h.push_same hok
  | write i key v => exact ⟨h.length, h.alloc, h.named, h.share⟩

theorem wellFormed_left {l : List (Stmt V)} {st : Stmt V} (h : WellFormed (l ++ [st])) : WellFormed l := by
  intro l1 st' l2 e
  exact h l1 st' (l2 ++ [st]) (by rw [e]; simp)

theorem execAll_inv {l : List (Stmt V)} (h : WellFormed l) : Inv (execAll start l) (owners l) := by
  induction l using List.reverseRecOn with
  | nil => exact ⟨rfl, by simp [execAll, start], by simp [owners], by intro i j hi; simp [owners] at hi⟩
  | append_singleton l st ih =>
    have e : execAll (start : Prog V) (l ++ [st]) = exec (execAll start l) st := by
      simp [execAll, List.foldl_append]
    rw [e]
    exact exec_inv (ih (wellFormed_left h)) (h l st [] rfl)

/-- C60: in any program, two objects have the same dictionary exactly when one was obtained from the other (or both from a
third) by wrapping only. -/
theorem C60_sharing {l : List (Stmt V)} (h : WellFormed l) {i j : Nat} (hi : i < (owners l).length)
    (hj : j < (owners l).length) : (execAll start l).objs.getD i 0 = (execAll start l).objs.getD j 0 ↔
      (owners l).getD i 0 = (owners l).getD j 0 :=
  (execAll_inv h).share i j hi hj

/-- C60: in any program, writing an attribute of an object is seen by the objects sharing its owner and by no other. -/
theorem C60_write {l : List (Stmt V)} (h : WellFormed l) {i j : Nat} (hi : i < (owners l).length)
    (hj : j < (owners l).length) (key : String) (v : V) :
    ((owners l).getD i 0 = (owners l).getD j 0 → readAttr (execAll start (l ++ [.write i key v])) j key = some v) ∧
    ((owners l).getD i 0 ≠ (owners l).getD j 0 → ∀ k, readAttr (execAll start (l ++ [.write i key v])) j k =
      readAttr (execAll start l) j k) := by
  have hs := C60_sharing h hi hj
  have e : execAll (start : Prog V) (l ++ [.write i key v]) = exec (execAll start l) (.write i key v) := by
    simp [execAll, List.foldl_append]
  rw [e]
  constructor
  · intro ho
    have := hs.2 ho
    simp only [readAttr, exec, Heap.write, this]
    simp
  · intro ho k
    have hne : (execAll (start : Prog V) l).objs.getD j 0 ≠ (execAll start l).objs.getD i 0 := fun e => ho (hs.1 e.symm)
    simp only [readAttr, exec, Heap.write]
    rw [if_neg hne]

/-! ### Non-vacuity -/

/-- A mat, its net, the net wrapped again, its mesh; then a write through the wrapper. -/
def demoProgram : List (Stmt Nat) := [.mat 10 50, .net 0 1, .wrap 1, .mesh 2, .write 2 "size" 7]

example : WellFormed demoProgram := by
  intro l1 st l2 e
  match l1, e with
  | [], e => cases e; trivial
  | [_], e => cases e; show 0 < _; decide
  | [_, _], e => cases e; show 1 < _; decide
  | [_, _, _], e => cases e; show 2 < _; decide
  | [_, _, _, _], e => cases e; show 2 < _; decide
  | _ :: _ :: _ :: _ :: _ :: l1, e => simp [demoProgram] at e

/-- The write is seen by the net, not by the mat and the mesh. -/
example : [0, 1, 2, 3].map (fun i => readAttr (execAll start demoProgram) i "size") = [some 50, some 7, some 7, some 50] := by
  decide +kernel
example : owners demoProgram = [0, 1, 1, 3] := by decide +kernel

end Fibermat
