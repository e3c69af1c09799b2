import Verif.Props.RepoTests
import Verif.Model.Mersenne
import Mathlib.Data.Rat.Floor

/-! # The printed outputs of the repository, replayed from the seed

`test/test_mat.py:50-61` lists the mat of ten fibers built with seed 0.  The model, with numpy's generator (`Model/Mersenne.lean`) and
Taylor polynomials for the cosine and the sine, gives the same table up to the printed accuracy.  `jupyter-notebook.ipynb` shows parts of
the mat, net and mesh of a hundred fibers built with seed 0.  This is evidence that the model matches the code, not a theorem
about it. -/

namespace Fibermat.Replay
open RepoTests

/-- Rounding to a multiple of `2^(-60)`. -/
def grid (q : ℚ) : ℚ := (⌊q * 2 ^ 60⌋ : ℤ) / 2 ^ 60

/-- `a - a t² / ((k+1)(k+2)) + …`, `n` terms. -/
def series (t : ℚ) : ℕ → ℕ → ℚ → ℚ
  | 0, _, _ => 0
  | n + 1, k, a => a + series t n (k + 2) (grid (-(a * t * t) / ((k + 1) * (k + 2))))

def cosQ (t : ℚ) : ℚ := grid (series t 16 0 1)
def sinQ (t : ℚ) : ℚ := grid (series t 16 1 t)

/-- The default arguments of `Mat` (`mat.py:159-160`), with `n` fibers and a tensile modulus. -/
def args (n : ℤ) (tensile : WithTop ℚ) : MatArgs ℚ :=
  { n := n, length := 25, width := 1, thickness := 1, size := 50, theta := npPi, psi := 0, shear := 1, tensile := tensile, seed := some 0 }

/-- `Mat(n, tensile=…)`. -/
def theMat (n : ℤ) (tensile : WithTop ℚ) : Except Err (Mat ℚ) := (matNew numpyRng cosQ sinQ (mtSeed 1) (args n tensile) (mtSeed 2)).map Prod.fst

def sameFiber (f g : Fiber ℚ) : Bool :=
  near f.l g.l && near f.b g.b && near f.h g.h && near f.x g.x && near f.y g.y && near f.z g.z && near f.u g.u && near f.v g.v &&
    near f.w g.w && decide (f.G = g.G) && decide (f.E = g.E)

set_option maxRecDepth 100000 in
/-- `equal(Mat(10), mat)` (`test_mat.py:66`). -/
example : (theMat 10 ⊤).toOption.any (fun m => agree sameFiber m.fibers mat.fibers) = true := by decide +kernel

/-- The rows of the mat shown in cell 17 of `jupyter-notebook.ipynb` (six decimals), with their numbers. -/
def shownMat : List (ℕ × Fiber ℚ) := [
  (0, ⟨25, 1, 1, (97627 / 40000), (8890827 / 1000000), (-24338157 / 1000000), (144683 / 500000), (478609 / 500000), 0, 1, ((625 : ℚ) : WithTop ℚ)⟩),
  (1, ⟨25, 1, 1, (2689867 / 250000), (-11499601 / 1000000), (-24178519 / 1000000), (651721 / 1000000), (758459 / 1000000), 0, 1, ((625 : ℚ) : WithTop ℚ)⟩),
  (2, ⟨25, 1, 1, (5138169 / 1000000), (11759701 / 1000000), (-479349 / 20000), (86573 / 100000), (-15641 / 31250), 0, 1, ((625 : ℚ) : WithTop ℚ)⟩),
  (3, ⟨25, 1, 1, (2244159 / 1000000), (23109427 / 1000000), (-1485379 / 62500), (6301 / 25000), (-967717 / 1000000), 0, 1, ((625 : ℚ) : WithTop ℚ)⟩),
  (4, ⟨25, 1, 1, (-190863 / 50000), (-12562343 / 1000000), (-370576 / 15625), (11973 / 12500), (-287303 / 1000000), 0, 1, ((625 : ℚ) : WithTop ℚ)⟩),
  (95, ⟨25, 1, 1, (-990027 / 62500), (-23853 / 50000), (23096819 / 1000000), (128503 / 1000000), (991709 / 1000000), 0, 1, ((625 : ℚ) : WithTop ℚ)⟩),
  (96, ⟨25, 1, 1, (4325647 / 1000000), (-13629269 / 1000000), (11822987 / 500000), (898537 / 1000000), (-219449 / 500000), 0, 1, ((625 : ℚ) : WithTop ℚ)⟩),
  (97, ⟨25, 1, 1, (-23994623 / 1000000), (-191909 / 15625), (23874757 / 1000000), (450187 / 500000), (-435117 / 1000000), 0, 1, ((625 : ℚ) : WithTop ℚ)⟩),
  (98, ⟨25, 1, 1, (16447001 / 1000000), (-11049271 / 500000), (24091469 / 1000000), (2051 / 40000), (-199737 / 200000), 0, 1, ((625 : ℚ) : WithTop ℚ)⟩),
  (99, ⟨25, 1, 1, (-12382613 / 500000), (-3279169 / 1000000), (24516947 / 1000000), (549633 / 1000000), (-417703 / 500000), 0, 1, ((625 : ℚ) : WithTop ℚ)⟩)]

/-- The rows of the net shown in cell 21. -/
def shownNet : List (ℕ × NetRow ℚ) := [
  (0, ⟨0, 0, (25 / 2), (-25 / 2), (757219 / 125000), (10428029 / 500000), (-24338157 / 1000000), (-1176401 / 1000000), (-768601 / 250000), (-24338157 / 1000000)⟩),
  (1, ⟨0, 2, (3938063 / 1000000), (-899791 / 500000), (3580217 / 1000000), (12660413 / 1000000), (-24338157 / 1000000), (3580217 / 1000000), (12660413 / 1000000), (-479349 / 20000)⟩),
  (2, ⟨0, 3, (6509881 / 1000000), (2063419 / 250000), (2162207 / 500000), (3024441 / 200000), (-24338157 / 1000000), (2162207 / 500000), (3024441 / 200000), (-1485379 / 62500)⟩),
  (3, ⟨0, 5, (1349 / 5000), (-3582541 / 500000), (1259373 / 500000), (2287271 / 250000), (-24338157 / 1000000), (1259373 / 500000), (2287271 / 250000), (-21802237 / 1000000)⟩),
  (4, ⟨0, 6, (-5233057 / 500000), (626447 / 100000), (-73483 / 125000), (-1127531 / 1000000), (-24338157 / 1000000), (-73483 / 125000), (-1127531 / 1000000), (-10818759 / 500000)⟩),
  (862, ⟨95, 95, (25 / 2), (-25 / 2), (-14234141 / 1000000), (1489913 / 125000), (23096819 / 1000000), (-17446723 / 1000000), (-12873423 / 1000000), (23096819 / 1000000)⟩),
  (863, ⟨96, 96, (25 / 2), (-25 / 2), (3889339 / 250000), (-19115497 / 1000000), (11822987 / 500000), (-6906063 / 1000000), (-25447 / 3125), (11822987 / 500000)⟩),
  (864, ⟨97, 97, (25 / 2), (-25 / 2), (-12739951 / 1000000), (-8860571 / 500000), (23874757 / 1000000), (-7049859 / 200000), (-6843209 / 1000000), (23874757 / 1000000)⟩),
  (865, ⟨98, 98, (25 / 2), (-25 / 2), (17087939 / 1000000), (-34582099 / 1000000), (24091469 / 1000000), (987879 / 62500), (-1922997 / 200000), (24091469 / 1000000)⟩),
  (866, ⟨99, 99, (25 / 2), (-25 / 2), (-17894817 / 1000000), (-13721749 / 1000000), (24516947 / 1000000), (-6327127 / 200000), (1790853 / 250000), (24516947 / 1000000)⟩)]

/-- The rows of the mesh shown in cell 28. -/
def shownMesh : List (ℕ × MeshRow ℚ) := [
  (0, ⟨0, (-25 / 2), (-1176401 / 1000000), (-768601 / 250000), (1 / 2), 1, 0⟩),
  (1, ⟨0, (-5233057 / 500000), (-73483 / 125000), (-1127531 / 1000000), (1 / 2), 2, 58⟩),
  (2, ⟨0, (-2947313 / 1000000), (1587823 / 1000000), (1517401 / 250000), (1 / 2), 3, 242⟩),
  (3, ⟨0, (-1655929 / 1000000), (392301 / 200000), (7305741 / 1000000), (1 / 2), 4, 276⟩),
  (4, ⟨0, (1349 / 5000), (1259373 / 500000), (2287271 / 250000), (1 / 2), 5, 44⟩),
  (1063, ⟨99, (673341 / 200000), (-916591 / 40000), (-1218347 / 200000), (53 / 2), 1064, 754⟩),
  (1064, ⟨99, (6159453 / 1000000), (-21379789 / 1000000), (-1684963 / 200000), (53 / 2), 1065, 684⟩),
  (1065, ⟨99, (7284437 / 1000000), (-10380731 / 500000), (-4682317 / 500000), (53 / 2), 1066, 810⟩),
  (1066, ⟨99, (563533 / 50000), (-18570503 / 1000000), (-12694751 / 1000000), (53 / 2), 1067, 986⟩),
  (1067, ⟨99, (25 / 2), (-17894817 / 1000000), (-13721749 / 1000000), (53 / 2), 1060, 1067⟩)]

def sameNet (r t : NetRow ℚ) : Bool :=
  decide (r.A = t.A) && decide (r.B = t.B) && near r.sA t.sA && near r.sB t.sB && near r.xA t.xA && near r.yA t.yA && near r.zA t.zA &&
    near r.xB t.xB && near r.yB t.yB && near r.zB t.zB

def sameMesh (r t : MeshRow ℚ) : Bool :=
  decide (r.fiber = t.fiber) && near r.s t.s && near r.x t.x && near r.y t.y && near r.z t.z && decide (r.beam = t.beam) &&
    decide (r.constraint = t.constraint)

/-- All shown rows are found. -/
def shows {R : Type} (same : R → R → Bool) (rows : List R) (shown : List (ℕ × R)) : Bool :=
  shown.all (fun p => rows[p.1]?.any (fun r => same r p.2))

/-- The heights found by one pass over the constraints, which `C16_greedy` shows to be the solution of the linear program. -/
def lowest (p : LP ℚ) : Option (List ℚ) := Id.run do
  let mut z := p.lower.toArray
  let mut a := Array.replicate p.H.length 0
  let mut b := Array.replicate p.H.length 0
  for e in p.C.entries do
    if 0 < e.2.2 then a := a.set! e.1 e.2.1 else b := b.set! e.1 e.2.1
  let h := p.H.toArray
  for k in [0:p.H.length] do
    let v := z[a[k]!]! - h[k]!
    if z[b[k]!]! < v then z := z.set! b[k]! v
  return some z.toList

/-- `Net(mat)`. -/
def theNet : Except Err (Net ℚ) := do netNew (← theMat 100 ((625 : ℚ) : WithTop ℚ)) true

/-- `Mesh(Stack(mat, net, threshold=10))`. -/
def theMesh : Except Err (Mesh ℚ) := do
  let mat ← theMat 100 ((625 : ℚ) : WithTop ℚ)
  let s ← stackNew lowest mat (← netNew mat true) (some 10)
  meshNew s.2

/-! Evaluated, not proved (too long for the kernel): "[100 rows x 11 columns]", "[867 rows x 10 columns]", "[1068 rows x 7 columns]" and the rows shown. -/

#guard (theMat 100 ((625 : ℚ) : WithTop ℚ)).toOption.any (fun m => m.fibers.length == 100 && shows sameFiber m.fibers shownMat)
#guard theNet.toOption.any (fun n => n.rows.length == 867 && shows sameNet n.rows shownNet)
#guard theMesh.toOption.any (fun n => n.rows.length == 1068 && shows sameMesh n.rows shownMesh)

end Fibermat.Replay
