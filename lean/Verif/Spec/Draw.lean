import Verif.Model.Draw
import Verif.Spec.MeshInit

/-! # Specification of the drawing of a mesh -/

namespace Fibermat.Spec
variable {K : Type}

/-- The two ends of a connection. -/
def ptA (r : NetRow K) : K × K × K := (r.xA, r.yA, r.zA)
def ptB (r : NetRow K) : K × K × K := (r.xB, r.yB, r.zB)

/-- The line of a connection between two fibers, from its lower to its upper end; none if they are at the same height. -/
def upward [LinearOrder K] (r : NetRow K) : List ((K × K × K) × (K × K × K)) :=
  if r.A = r.B then [] else if r.zA < r.zB then [(ptA r, ptB r)] else if r.zB < r.zA then [(ptB r, ptA r)] else []

/-- The connections after a displacement `u` of the nodes, `place` telling which nodes they join. -/
def displaced [Add K] (net : List (NetRow K)) (place : ℕ → ℕ) (u : ℕ → K) : List (NetRow K) :=
  net.mapIdx (fun k r => { r with zA := r.zA + u (2 * place (2 * k)), zB := r.zB + u (2 * place (2 * k + 1)) })

end Fibermat.Spec
