import Verif.Model.Net

/-! # Model of `/repo/src/fibermat/mesh.py` -/

namespace Fibermat
variable {K : Type}

/-- One row of a `Mesh` frame (`mesh.py:167-172`). -/
structure MeshRow (K : Type) where
  fiber : Int
  s : K
  x : K
  y : K
  z : K
  beam : Int
  constraint : Int
deriving DecidableEq, Repr

/-- Column names of a `Mesh` (`mesh.py:267`). -/
def meshColumns : List String := ["fiber", "s", "x", "y", "z", "beam", "constraint"]

/-- A raw frame passed to `Mesh.check`; `intFiber`, `intNodes` say whether the columns `fiber`, resp. `beam` and
`constraint`, have integer dtype (`mesh.py:287-290`). Simplification: integer row labels. -/
structure MeshFrame (K : Type) where
  columns : List String
  intFiber : Bool
  intNodes : Bool
  rows : List (Int × MeshRow K)
  attrs : Attrs K

section
variable [LinearOrder K]

/-- Lexicographic order on (fiber, s) used by `sort_values(by=["fiber", "s"])` (`mesh.py:183,307`). -/
def fsLe (a b : Int × K) : Prop := a.1 < b.1 ∨ (a.1 = b.1 ∧ a.2 ≤ b.2)

instance : DecidableRel (fsLe (K := K)) := fun a b => by unfold fsLe; infer_instance

/-- `mesh.groupby("fiber")`: the sublists of rows of equal fiber, in increasing order of the
fiber label, each in row order (`mesh.py:186,311,316`). -/
def groupBy {α : Type} (fiber : α → Int) (rows : List α) : List (List α) :=
  (npUnique (rows.map fiber)).map (fun f => rows.filter (fun r => fiber r = f))

/-- `np.hstack(mesh.groupby("fiber").apply(lambda x: np.roll(x.index, -1)))` (`mesh.py:185-188,310-312`),
`label` giving the row label. -/
def rolled {α β : Type} (fiber : α → Int) (label : α → β) (rows : List α) : List β :=
  (groupBy fiber rows).flatMap (fun g => roll (g.map label))

/-- Integer `constraint[constraint]` lookup by label when labels are `0..m-1` (`mesh.py:314`). -/
def lookupInt (l : List Int) (i : Int) : Option Int := if 0 ≤ i then l[i.toNat]? else none

/-- `Mesh.check` (`mesh.py:223-326`).
Simplification: as in `netCheck` for label lists with duplicates (`mesh.py:280`). -/
def meshCheck (f : MeshFrame K) : Except Err Unit :=
  if f.attrs.skip then .ok ()                                             -- 259-263
  else if !meshColumns.all (· ∈ f.columns) then .error .keyError          -- 266-269
  else match f.attrs.n, f.attrs.size, f.attrs.periodic with
    | none, _, _ => .error .attributeError                                -- 272-273
    | _, none, _ => .error .attributeError                                -- 274-275
    | _, _, none => .error .attributeError                                -- 276-277
    | some n, some _, some _ =>
      let index := f.rows.map Prod.fst
      let rows := f.rows.map Prod.snd
      let m := f.rows.length
      if npUnique index ≠ arange m then .error .indexError                -- 280-282
      else if index ≠ arange m then .error .indexError                    -- 283-284
      else if !f.intFiber then .error .typeError                          -- 287-288
      else if !f.intNodes then .error .typeError                          -- 289-290
      else if m = 0 then .ok ()                                           -- 293
      else if !rows.all (fun r => decide (0 ≤ r.fiber) && decide (r.fiber < n))
        then .error .valueError                                           -- 294-297
      else if !rows.all (fun r => decide (0 ≤ r.beam) && decide (r.beam < m))
        then .error .valueError                                           -- 298-300
      else if !rows.all (fun r => decide (0 ≤ r.constraint) && decide (r.constraint < m))
        then .error .valueError                                           -- 301-304
      else if (rows.map (·.fiber)).insertionSort (· ≤ ·) ≠ rows.map (·.fiber)
        then .error .valueError                                           -- 305-306
      else if (f.rows.insertionSort
          (fun a b => fsLe (a.2.fiber, a.2.s) (b.2.fiber, b.2.s))).map Prod.fst ≠ index
        then .error .valueError                                           -- 307-309
      else if rows.map (·.beam) ≠ rolled (fun r : Int × MeshRow K => r.2.fiber) Prod.fst f.rows
        then .error .valueError                                           -- 310-313
      else if rows.map (fun r => lookupInt (rows.map (·.constraint)) r.constraint)
          ≠ index.map some then .error .valueError                        -- 314-315
      else if !((groupBy (fun r : Int × MeshRow K => r.2.fiber) f.rows).all
            (fun g => g.head?.all (fun r => r.2.constraint = r.1))
          && (groupBy (fun r : Int × MeshRow K => r.2.fiber) f.rows).all
            (fun g => g.getLast?.all (fun r => r.2.constraint = r.1)))
        then .error .valueError                                           -- 316-323
      else .ok ()                                                         -- 326

/-- A node of the mesh before elements are attached (`mesh.py:162-170`). -/
structure Node (K : Type) where
  fiber : Int
  s : K
  x : K
  y : K
  z : K
deriving DecidableEq, Repr

/-- `np.c_[pairs, abscissa, points]`: each net row gives its A node then its B node (`mesh.py:162-174`). -/
def meshNodes (rows : List (NetRow K)) : List (Node K) :=
  rows.flatMap (fun r => [⟨r.A, r.sA, r.xA, r.yA, r.zA⟩, ⟨r.B, r.sB, r.xB, r.yB, r.zB⟩])

/-- A node with its label and its `constraint` entry, before reordering (`mesh.py:181`). -/
structure RawNode (K : Type) where
  label : Nat
  constraint : Nat
  node : Node K

/-- `mesh.index.values.reshape(-1, 2)[:, ::-1].ravel()` (`mesh.py:181`). -/
def swapLabels (m : Nat) : List Nat := (List.range m).flatMap (fun k => [2 * k + 1, 2 * k])

/-- Nodes with labels `0..2m-1` and their partner (`mesh.py:162-181`). -/
def rawNodes (rows : List (NetRow K)) : List (RawNode K) :=
  ((meshNodes rows).zipIdx.zip (swapLabels rows.length)).map
    (fun p => ⟨p.1.2, p.2, p.1.1⟩)

/-- `mesh.sort_values(by=["fiber", "s"])` (`mesh.py:183`): stable. -/
def sortNodes (l : List (RawNode K)) : List (RawNode K) :=
  l.insertionSort (fun a b => fsLe (a.node.fiber, a.node.s) (b.node.fiber, b.node.s))

/-- The rows of `Mesh.init` for a non-empty net (`mesh.py:162-196`).
Array accesses use `getD`; the accessed positions are in range. -/
def meshRows (net : List (NetRow K)) : List (MeshRow K) :=
  let sorted := sortNodes (rawNodes net)                                  -- 183
  let index := sorted.map (·.label)
  let beam := rolled (fun r : RawNode K => r.node.fiber) (·.label) sorted -- 185-188
  let indices := argsort index                                            -- 190
  let newIndex := index.map (fun k => indices.getD k 0)                   -- 191
  let newBeam := beam.map (fun k => indices.getD k 0)                     -- 192
  let newConstraint := sorted.map (fun r => indices.getD r.constraint 0)  -- 193
  let fiberAt : Nat → Option Int := fun k =>                              -- 195: mesh.fiber.loc[k]
    ((newIndex.zip sorted).find? (fun p => p.1 = k)).map (fun p => p.2.node.fiber)
  (sorted.zip (newIndex.zip (newBeam.zip newConstraint))).map
    (fun (r, i, b, c) =>
      { fiber := r.node.fiber, s := r.node.s, x := r.node.x, y := r.node.y, z := r.node.z
        beam := (b : Int)
        constraint := if some r.node.fiber = fiberAt c then (i : Int) else (c : Int) }) -- 195-196

/-- A `Mesh` object: rows labelled `0..m-1`, integer labels, standard columns; `h` is the thickness column that
`constraint` adds (`model.py:266`), `none` before. -/
structure Mesh (K : Type) where
  rows : List (MeshRow K)
  attrs : Attrs K
  h : Option (List K) := none

/-- The data frame of a `Mesh` object (an extra column `h` is not looked at by the check). -/
def Mesh.frame (m : Mesh K) : MeshFrame K :=
  { columns := meshColumns
    intFiber := true
    intNodes := true
    rows := m.rows.zipIdx.map (fun p => ((p.2 : Int), p.1))
    attrs := m.attrs }

/-- `Mesh.init` (`mesh.py:135-199`). -/
def meshInit (net : Net K) : Except Err (Mesh K) := do
  netCheck net.frame                                                      -- 159
  return { rows := meshRows net.rows, attrs := net.attrs }                -- 162-199

/-- `Mesh(net)` (`mesh.py:125-130`): `Mesh.init` then `Mesh.check`. -/
def meshNew (net : Net K) : Except Err (Mesh K) := do
  let mesh ← meshInit net
  meshCheck mesh.frame
  return mesh

end
end Fibermat
