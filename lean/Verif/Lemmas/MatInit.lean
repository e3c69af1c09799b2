import Verif.Lemmas.Mat
import Verif.Spec.Random

namespace Fibermat
open Spec
variable {σ K : Type}

theorem stateAfter_add (g : Rng σ K) (m n : Nat) (s : σ) :
    stateAfter g (m + n) s = stateAfter g n (stateAfter g m s) := by
  induction m generalizing s with
  | zero => simp [stateAfter]
  | succ m ih => rw [Nat.succ_add]; simp [stateAfter, ih]

theorem draws_fst_length (g : Rng σ K) (n : Nat) (s : σ) : (g.draws n s).1.length = n := by
  induction n generalizing s with
  | zero => rfl
  | succ n ih => simp [Rng.draws, ih]

theorem draws_snd (g : Rng σ K) (n : Nat) (s : σ) : (g.draws n s).2 = stateAfter g n s := by
  induction n generalizing s with
  | zero => rfl
  | succ n ih => simp [Rng.draws, ih, stateAfter]

theorem draws_eq (g : Rng σ K) (n : Nat) (s : σ) :
    (g.draws n s).1 = (List.range n).map (drawn g s) := by
  induction n generalizing s with
  | zero => rfl
  | succ n ih =>
    simp only [Rng.draws, ih, List.range_succ_eq_map, List.map_cons, List.map_map]
    congr 1

variable [Field K] [LinearOrder K]

omit [LinearOrder K] in
theorem uniform_fst (g : Rng σ K) (n : Nat) (s : σ) :
    (g.uniform n s).1 = (List.range n).map (fun i => -(1 / 2) + (1 / 2 - -(1 / 2)) * drawn g s i) := by
  simp [Rng.uniform, draws_eq]

omit [LinearOrder K] in
theorem uniform_snd (g : Rng σ K) (n : Nat) (s : σ) : (g.uniform n s).2 = stateAfter g n s := by
  simp [Rng.uniform, draws_snd]

omit [LinearOrder K] in
theorem uniform_length (g : Rng σ K) (n : Nat) (s : σ) : (g.uniform n s).1.length = n := by
  simp [uniform_fst]

/-- The five columns of random numbers, after scaling. -/
structure Columns (K : Type) where
  xs : List K
  ys : List K
  zs : List K
  ps : List K
  qs : List K

/-- The columns computed by `Mat.init` from generator state `s`. -/
def columnsOf (g : Rng σ K) (a : MatArgs K) (n : Nat) (s : σ) : Columns K where
  xs := (g.uniform n s).1.map (· * a.size)
  ys := (g.uniform n (stateAfter g n s)).1.map (· * a.size)
  zs := ((g.uniform n (stateAfter g (2 * n) s)).1.map (· * a.size)).insertionSort (· ≤ ·)
  ps := (g.uniform n (stateAfter g (3 * n) s)).1.map (· * a.theta)
  qs := (g.uniform n (stateAfter g (4 * n) s)).1.map (· * a.psi)

/-- The fibers built from the columns. -/
def fibersOf (cos sin : K → K) (a : MatArgs K) (c : Columns K) : List (Fiber K) :=
  (c.xs.zip (c.ys.zip (c.zs.zip (c.ps.zip c.qs)))).map
      (fun (x, y, z, p, q) =>
        { l := a.length, b := a.width, h := a.thickness, x := x, y := y, z := z
          u := cos p * cos q, v := sin p * cos q, w := sin q
          G := a.shear, E := a.tensile : Fiber K })

theorem matInit_eq (g : Rng σ K) (cos sin : K → K) (e : σ) (a : MatArgs K) (s : σ) :
    matInit g cos sin e a s =
      if !seedOk a.seed then .error .valueError
      else if a.n < 0 then .error .valueError
      else .ok ({ fibers := fibersOf cos sin a (columnsOf g a a.n.toNat (g.reseed e a.seed s))
                  attrs := { n := some a.n, size := some a.size } },
                stateAfter g (5 * a.n.toNat) (g.reseed e a.seed s)) := by
  unfold matInit
  split
  · rfl
  split
  · rfl
  · simp only [uniform_snd, fibersOf, columnsOf]
    have h2 : ∀ s, stateAfter g a.n.toNat (stateAfter g a.n.toNat s) = stateAfter g (2 * a.n.toNat) s := by
      intro s; rw [← stateAfter_add]; congr 1; omega
    have h3 : ∀ k s, stateAfter g a.n.toNat (stateAfter g (k * a.n.toNat) s)
        = stateAfter g ((k + 1) * a.n.toNat) s := by
      intro k s; rw [← stateAfter_add]; congr 1; ring
    rw [h2, h3, h3, h3]

omit [Field K] in
theorem columns_lengths [Field K] (g : Rng σ K) (a : MatArgs K) (n : Nat) (s : σ) :
    (columnsOf g a n s).xs.length = n ∧ (columnsOf g a n s).ys.length = n ∧ (columnsOf g a n s).zs.length = n ∧
    (columnsOf g a n s).ps.length = n ∧ (columnsOf g a n s).qs.length = n := by
  simp [columnsOf, uniform_length]

section fibers
variable (cos sin : K → K) (a : MatArgs K) (c : Columns K) (n : Nat)
  (hx : c.xs.length = n) (hy : c.ys.length = n) (hz : c.zs.length = n)
  (hp : c.ps.length = n) (hq : c.qs.length = n)
include hx hy hz hp hq

omit [LinearOrder K] in
theorem fibersOf_length : (fibersOf cos sin a c).length = n := by
  simp [fibersOf, hx, hy, hz, hp, hq]

omit [LinearOrder K] in
theorem fibersOf_getElem (i : Nat) (h : i < (fibersOf cos sin a c).length) (hi : i < n) :
    (fibersOf cos sin a c)[i] =
      { l := a.length, b := a.width, h := a.thickness
        x := c.xs[i]'(hx ▸ hi), y := c.ys[i]'(hy ▸ hi), z := c.zs[i]'(hz ▸ hi)
        u := cos (c.ps[i]'(hp ▸ hi)) * cos (c.qs[i]'(hq ▸ hi))
        v := sin (c.ps[i]'(hp ▸ hi)) * cos (c.qs[i]'(hq ▸ hi))
        w := sin (c.qs[i]'(hq ▸ hi))
        G := a.shear, E := a.tensile } := by
  simp [fibersOf]

end fibers
end Fibermat
