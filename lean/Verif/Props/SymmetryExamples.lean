import Verif.Props.Symmetry

/-! # Concrete cases of C80 -/

namespace Fibermat
open Spec

/-- `crossMat` turned by a quarter turn and moved by (5, 6); the first fiber enters the box on the other side. -/
def crossTurned : Mat ℚ :=
  { fibers := [⟨10, 1, 1, 5, -6, 5, 0, 1, 0, 1, ⊤⟩, ⟨8, 1, 2, 4, -9, 0, -1, 0, 0, 1, ⊤⟩,
               ⟨10, 1, 1, 5, -3, 7, -4 / 5, 3 / 5, 0, 1, ⊤⟩]
    attrs := { n := some 3, size := some 20 } }

theorem crossTurned_good : GoodMat crossTurned := by
  have h : matCheck crossTurned.frame = .ok () := by decide +kernel
  exact ((matCheck_frame_iff _).1 h).resolve_left (by simp [Skipped, crossTurned])

theorem crossTurned_turned : List.Forall₂ (TurnedInBox 20 ((0 : ℤ) : ℚ) ((-1 : ℤ) : ℚ) ((1 : ℤ) : ℚ) ((0 : ℤ) : ℚ) 5 6)
    crossMat.fibers crossTurned.fibers := by
  refine List.Forall₂.cons ⟨0, -1, ⟨rfl, rfl, rfl, rfl, rfl, rfl, rfl⟩, ?_⟩ (List.Forall₂.cons ⟨0, -1, ⟨rfl, rfl, rfl, rfl, rfl, rfl, rfl⟩, ?_⟩
    (List.Forall₂.cons ⟨0, 0, ⟨rfl, rfl, rfl, rfl, rfl, rfl, rfl⟩, ?_⟩ List.Forall₂.nil)) <;> norm_num

/-- `C80_periodic` applies to `crossMat` and `crossTurned`: the two simulations, which run, are the same. -/
example {lp : Linprog ℚ} (hlp : GoodLinprog lp) (o : Opts ℚ) :
    chain lp true none (some (1 / 100)) none 0 o none crossMat = chain lp true none (some (1 / 100)) none 0 o none crossTurned ∧
    ∃ res, chain lp true none (some (1 / 100)) none 0 o none crossMat = .ok res := by
  refine ⟨C80_periodic crossMat_good crossTurned_good rfl rfl crossMat_planar ?_ (a := 0) (b := -1) (c := 1) (d := 0) (p := 5) (q := 6) ?_
    crossTurned_turned hlp _ _ _ _ _ _, ?_⟩
  · simp only [crossMat, List.mem_cons, List.not_mem_nil, or_false]
    rintro f (rfl | rfl | rfl) <;> norm_num
  · norm_num [Orthogonal]
  · obtain ⟨net, m', st, mesh, S, recs, stop, h1, h2, h3, h4⟩ :=
      C78_runs hlp crossMat_good (by simp [crossMat]) true none (some (1 / 100)) none 0 o none
    refine ⟨(S, recs, stop), ?_⟩
    unfold chain
    simp only [h1, h2, h3, Bind.bind, Except.bind, h4]

/-- `twiceMat` with the origin of its box moved. -/
def twiceMoved : Mat ℚ :=
  { fibers := [⟨9, 1, 1, 3, 0, 0, 3 / 5, 4 / 5, 0, 1, ⊤⟩, ⟨9, 1, 1, -2, 0, 0, 4 / 5, -3 / 5, 0, 1, ⊤⟩]
    attrs := { n := some 2, size := some 10 } }

theorem twiceMoved_good : GoodMat twiceMoved := by
  have h : matCheck twiceMoved.frame = .ok () := by decide +kernel
  exact ((matCheck_frame_iff _).1 h).resolve_left (by simp [Skipped, twiceMoved])

/-- With fibers longer than half the box the connections do depend on where the box is placed. -/
theorem C80_long :
    List.Forall₂ (TurnedInBox 10 ((1 : ℤ) : ℚ) ((0 : ℤ) : ℚ) ((0 : ℤ) : ℚ) ((1 : ℤ) : ℚ) 3 0) twiceMat.fibers twiceMoved.fibers ∧
    ∃ net net' : Net ℚ, netNew twiceMat = .ok net ∧ netNew twiceMoved = .ok net' ∧ ¬ SameConnections net.rows net'.rows := by
  refine ⟨?_, _, _, netNew_eq twiceMat_good rfl true, netNew_eq twiceMoved_good rfl true, ?_⟩
  · refine List.Forall₂.cons ⟨0, 0, ⟨rfl, rfl, rfl, rfl, rfl, rfl, rfl⟩, ?_⟩ (List.Forall₂.cons ⟨-1, 0, ⟨rfl, rfl, rfl, rfl, rfl, rfl, rfl⟩, ?_⟩
      List.Forall₂.nil) <;> norm_num [twiceMat, twiceMoved]
  · unfold SameConnections
    decide +kernel

/-- A mat of two fibers crossing at right angles and its image by the rotation of cosine 3/5. -/
def plusMat : Mat ℚ :=
  { fibers := [⟨4, 1, 1, 0, 0, 0, 1, 0, 0, 1, ⊤⟩, ⟨4, 1, 1, 1, 1, 0, 0, 1, 0, 1, 2⟩]
    attrs := { n := some 2, size := some 10 } }

def plusTurned : Mat ℚ :=
  { fibers := [⟨4, 1, 1, 1, 0, 0, 3 / 5, 4 / 5, 0, 1, ⊤⟩, ⟨4, 1, 1, 4 / 5, 7 / 5, 0, -4 / 5, 3 / 5, 0, 1, 2⟩]
    attrs := { n := some 2, size := some 10 } }

theorem plusMat_good : GoodMat plusMat := by
  have h : matCheck plusMat.frame = .ok () := by decide +kernel
  exact ((matCheck_frame_iff _).1 h).resolve_left (by simp [Skipped, plusMat])

theorem plusTurned_good : GoodMat plusTurned := by
  have h : matCheck plusTurned.frame = .ok () := by decide +kernel
  exact ((matCheck_frame_iff _).1 h).resolve_left (by simp [Skipped, plusTurned])

example {lp : Linprog ℚ} (hlp : GoodLinprog lp) (o : Opts ℚ) :
    chain lp false (some 2) none none 0 o none plusMat = chain lp false (some 2) none none 0 o none plusTurned := by
  refine C80_plain plusMat_good plusTurned_good rfl (a := 3 / 5) (b := -4 / 5) (c := 4 / 5) (d := 3 / 5) (p := 1) (q := 0) ?_ ?_ hlp
    _ _ _ _ _ _
  · norm_num [Orthogonal]
  · refine List.Forall₂.cons ⟨⟨rfl, rfl, rfl, rfl, rfl, rfl, rfl⟩, ?_⟩ (List.Forall₂.cons ⟨⟨rfl, rfl, rfl, rfl, rfl, rfl, rfl⟩, ?_⟩
      List.Forall₂.nil) <;> norm_num

/-- The net of `plusMat` has a crossing. -/
example : ∃ net : Net ℚ, netNew plusMat false = .ok net ∧ net.rows.map (fun r => (r.A, r.B, r.sA, r.sB)) =
    [(0, 0, 2, -2), (0, 1, 1, -1), (1, 1, 2, -2)] := by
  refine ⟨_, netNew_eq plusMat_good rfl false, ?_⟩
  decide +kernel

end Fibermat
