import Verif.Model.Mesh
import Verif.Lemmas.MeshInit

/-! Changing the coordinates of a net changes those of its mesh, and nothing else. -/

namespace Fibermat
variable {K : Type} [LinearOrder K]

/-- Maps on abscissae and on the three coordinates. -/
structure CoordMap (K : Type) where
  s : K → K
  x : K → K
  y : K → K
  z : K → K

def CoordMap.row (φ : CoordMap K) (r : NetRow K) : NetRow K :=
  { A := r.A, B := r.B, sA := φ.s r.sA, sB := φ.s r.sB, xA := φ.x r.xA, yA := φ.y r.yA, zA := φ.z r.zA,
    xB := φ.x r.xB, yB := φ.y r.yB, zB := φ.z r.zB }

def CoordMap.node (φ : CoordMap K) (r : Node K) : Node K :=
  { fiber := r.fiber, s := φ.s r.s, x := φ.x r.x, y := φ.y r.y, z := φ.z r.z }

def CoordMap.raw (φ : CoordMap K) (r : RawNode K) : RawNode K :=
  { label := r.label, constraint := r.constraint, node := φ.node r.node }

def CoordMap.mesh (φ : CoordMap K) (r : MeshRow K) : MeshRow K :=
  { fiber := r.fiber, s := φ.s r.s, x := φ.x r.x, y := φ.y r.y, z := φ.z r.z, beam := r.beam, constraint := r.constraint }

theorem meshNodes_map (φ : CoordMap K) (rows : List (NetRow K)) :
    meshNodes (rows.map φ.row) = (meshNodes rows).map φ.node := by
  simp only [meshNodes, List.flatMap_map, List.map_flatMap]
  rfl

theorem rawNodes_map (φ : CoordMap K) (rows : List (NetRow K)) :
    rawNodes (rows.map φ.row) = (rawNodes rows).map φ.raw := by
  simp only [rawNodes, meshNodes_map, List.length_map, List.zipIdx_map, List.map_map, List.zip_map_left]
  rfl

theorem insertionSort_map {α β : Type} (f : α → β) (r : α → α → Prop) (r' : β → β → Prop) [DecidableRel r] [DecidableRel r']
    (h : ∀ a b, r' (f a) (f b) ↔ r a b) (l : List α) :
    (l.map f).insertionSort r' = (l.insertionSort r).map f := by
  have hins : ∀ (a : α) (l : List α), (l.map f).orderedInsert r' (f a) = (l.orderedInsert r a).map f := by
    intro a l
    induction l with
    | nil => rfl
    | cons b t ih =>
      simp only [List.map_cons, List.orderedInsert_cons, h]
      split
      · rfl
      · rw [ih]; rfl
  induction l with
  | nil => rfl
  | cons a t ih => simp only [List.map_cons, List.insertionSort_cons, ih, hins]

theorem sortNodes_map (φ : CoordMap K) (hs : ∀ a b, φ.s a ≤ φ.s b ↔ a ≤ b) (l : List (RawNode K)) :
    sortNodes (l.map φ.raw) = (sortNodes l).map φ.raw := by
  apply insertionSort_map
  intro a b
  simp [fsLe, CoordMap.raw, CoordMap.node, hs]

theorem rolled_map {α β γ : Type} (f : α → β) (fiber : β → Int) (label : β → γ) (l : List α) :
    rolled fiber label (l.map f) = rolled (fiber ∘ f) (label ∘ f) l := by
  simp only [rolled, groupBy, List.map_map, List.filter_map, List.flatMap_map]
  congr 1

/-- `Mesh.init` commutes with a change of coordinates that keeps the order of abscissae. -/
theorem meshRows_map (φ : CoordMap K) (hs : ∀ a b, φ.s a ≤ φ.s b ↔ a ≤ b) (rows : List (NetRow K)) :
    meshRows (rows.map φ.row) = (meshRows rows).map φ.mesh := by
  have h1 : sortNodes (rawNodes (rows.map φ.row)) = (sortNodes (rawNodes rows)).map φ.raw := by
    rw [rawNodes_map, sortNodes_map φ hs]
  unfold meshRows
  rw [h1]
  generalize sortNodes (rawNodes rows) = l
  have e1 : (l.map φ.raw).map (fun r => r.label) = l.map (fun r => r.label) := by rw [List.map_map]; rfl
  have e2 : rolled (fun r : RawNode K => r.node.fiber) (fun r => r.label) (l.map φ.raw) =
      rolled (fun r : RawNode K => r.node.fiber) (fun r => r.label) l := by rw [rolled_map]; rfl
  simp only [e1, e2, List.map_map, List.zip_map_left]
  refine List.map_congr_left ?_
  rintro ⟨r, i, b, c⟩ -
  simp only [Function.comp, CoordMap.mesh, Prod.map, CoordMap.raw, CoordMap.node, id, List.zip_map_right, List.find?_map, Option.map_map]
  rfl

end Fibermat
