import Verif.Lemmas.Base
import Verif.Spec.Frames
import Mathlib.Tactic.NormNum

namespace Fibermat
open Spec
variable {K : Type} [Field K] [LinearOrder K]

theorem labels_iff {α : Type} (rows : List (Int × α)) :
    rows.map Prod.fst = arange rows.length ↔ LabelsInOrder rows := by
  have := eq_arange_iff (rows.map Prod.fst)
  simpa [LabelsInOrder] using this

theorem pos_iff (c : Cell K) : c.pos = true ↔ Positive c := by
  cases c <;> simp [Cell.pos, Cell.lt, Positive]

theorem between_iff (lo hi : K) (c : Cell K) :
    (Cell.le (.fin lo) c = true ∧ Cell.le c (.fin hi) = true) ↔ Between lo hi c := by
  cases c <;> simp [Cell.le, Between]

theorem normTol_eq' [IsStrictOrderedRing K] : (normTol : K) = 1 / 10 ^ 5 + 1 / 10 ^ 8 := by
  unfold normTol; norm_num

theorem normOk_iff [IsStrictOrderedRing K] (r : MatRow (Cell K)) :
    normOk r = true ↔ UnitUpTo (1 / 10 ^ 5 + 1 / 10 ^ 8) r.u r.v r.w := by
  rw [← normTol_eq']
  obtain ⟨l, b, h, x, y, z, u, v, w, G, E⟩ := r
  cases u <;> cases v <;> cases w <;> simp [normOk, UnitUpTo]

theorem boxOk_iff (S : K) (r : MatRow (Cell K)) :
    boxOk S r = true ↔ Between (-(S / 2)) (S / 2) r.x ∧ Between (-(S / 2)) (S / 2) r.y := by
  unfold boxOk
  rw [← between_iff, ← between_iff]
  simp only [Bool.and_eq_true, and_assoc]

theorem dimsOk_iff (r : MatRow (Cell K)) :
    dimsOk r = true ↔ Positive r.l ∧ Positive r.b ∧ Positive r.h := by
  simp [dimsOk, pos_iff, and_assoc]

theorem moduliOk_iff (r : MatRow (Cell K)) :
    moduliOk r = true ↔ Positive r.G ∧ Positive r.E := by
  simp [moduliOk, pos_iff]

/-- The four data tests together are `GoodMatRow` for each row. -/
theorem goodRows_iff [IsStrictOrderedRing K] (S : K) (rows : List (Int × MatRow (Cell K))) :
    (((rows.map Prod.snd).all dimsOk = true ∧ (rows.map Prod.snd).all (boxOk S) = true) ∧
      ((rows.map Prod.snd).all normOk = true ∧ (rows.map Prod.snd).all moduliOk = true)) ↔
    ∀ r ∈ rows, GoodMatRow S r.2 := by
  simp only [List.all_eq_true, List.mem_map, forall_exists_index, and_imp,
    forall_apply_eq_imp_iff₂, dimsOk_iff, boxOk_iff, normOk_iff, moduliOk_iff]
  constructor
  · rintro ⟨⟨h1, h2⟩, h3, h4⟩ r hr
    exact ⟨(h1 r hr).1, (h1 r hr).2.1, (h1 r hr).2.2, (h2 r hr).1, (h2 r hr).2, h3 r hr, (h4 r hr).1, (h4 r hr).2⟩
  · intro h
    refine ⟨⟨fun r hr => ?_, fun r hr => ?_⟩, fun r hr => ?_, fun r hr => ?_⟩
    · exact ⟨(h r hr).l, (h r hr).b, (h r hr).h⟩
    · exact ⟨(h r hr).x, (h r hr).y⟩
    · exact (h r hr).dir
    · exact ⟨(h r hr).G, (h r hr).E⟩

end Fibermat
