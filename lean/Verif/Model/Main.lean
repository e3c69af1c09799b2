import Verif.Model.Plot
import Verif.Model.Stack

/-! # Model of the program `/repo/main.py` -/

namespace Fibermat
variable {σ K : Type} [Field K] [LinearOrder K]

/-- What the program has computed when it exports its result (`main.py:71-97`). -/
structure MainResult (K : Type) where
  mat : Mat K
  stack : Net K
  mesh : Mesh K
  picture : SystemPlot K
  sys : Sys K
  recs : List (Rec K)
  stop : Stop

/-- `main.py:71-97` with arbitrary arguments.  `order` stands for `reverse_cuthill_mckee`: some function of the system assembled with
the default options, whose answer is used as the permutation, for the picture and for the solver.  `Stack` changes the mat in place,
so that the later calls use the stacked one. -/
def mainProgram (g : Rng σ K) (cos sin : K → K) (entropy : σ) (lp : Linprog K) (order : Sys K → List Nat) (a : MatArgs K)
    (periodic : Bool) (threshold lmin lmax : Option K) (coupling : K) (o : Opts K) (s : σ) : Except Err (MainResult K × σ) := do
  let r ← matNew g cos sin entropy a s                                     -- 72
  let net ← netNew r.1 periodic                                            -- 74
  let st ← stackNew lp r.1 net threshold                                   -- 76
  let mesh ← meshNew st.2                                                  -- 78
  let Km ← stiffness st.1 mesh none none 1                                 -- 81
  let cs ← constraint st.1 mesh                                            -- 82
  let S0 := assemble Km cs                                                 -- 83
  let perm := order S0                                                     -- 85
  let pic ← plotSystem S0 { o with perm := perm } (S0.init o)              -- 89
  let out ← solve st.1 mesh lmin lmax coupling o (some perm)               -- 93-97
  return ({ mat := st.1, stack := st.2, mesh := mesh, picture := pic, sys := out.1, recs := out.2.1, stop := out.2.2 }, r.2)

end Fibermat
