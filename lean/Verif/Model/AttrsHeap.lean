import Verif.Model.Base

/-! # Attribute dictionaries as mutable objects

Which objects share their `attrs` dictionary.  `pandas.DataFrame.attrs = d` stores a copy `dict(d)`, whereas the setters of `Mat`,
`Net`, `Stack`, `Mesh` store `d` itself (`mat.py:248-250`, `net.py:288-291`, `net.py:610-612`, `mesh.py:217-219`). -/

namespace Fibermat

/-- A dictionary from attribute names to values (values abstract). -/
abbrev Dict (V : Type) := String → Option V

/-- The heap of dictionaries: address ↦ dictionary; addresses `≥ size` are not allocated. -/
structure Heap (V : Type) where
  size : Nat
  dict : Nat → Dict V

/-- `dict(d)`: allocate a copy of the dictionary at address `a`. -/
def Heap.copy {V : Type} (h : Heap V) (a : Nat) : Heap V × Nat :=
  ({ size := h.size + 1, dict := fun b => if b = h.size then h.dict a else h.dict b }, h.size)

/-- Allocate an empty dictionary. -/
def Heap.fresh {V : Type} (h : Heap V) : Heap V × Nat :=
  ({ size := h.size + 1, dict := fun b => if b = h.size then (fun _ => none) else h.dict b }, h.size)

/-- `attrs[key] = v` on the dictionary at address `a`. -/
def Heap.write {V : Type} (h : Heap V) (a : Nat) (key : String) (v : V) : Heap V :=
  { h with dict := fun b => if b = a then (fun k => if k = key then some v else h.dict a k) else h.dict b }

/-- `Mat(mat)`, `Net(net)`, `Stack(net)`, `Mesh(mesh)` (`mat.py:139-145`, `net.py:126-133`, `net.py:513-520`, `mesh.py:118-123`):
`self.attrs = args[0].attrs` through the sharing setter; the address of the result's dictionary is the argument's. -/
def wrap {V : Type} (h : Heap V) (a : Nat) : Heap V × Nat := (h, a)

/-- `Net(mat, periodic=p)` (`net.py:134-137,258-269`): a plain `DataFrame` gets a copy of `mat.attrs`, then `periodic` is written
in the copy, and `Net.__init__` wraps that frame. -/
def netAttrs {V : Type} (h : Heap V) (mat : Nat) (p : V) : Heap V × Nat :=
  let r := h.copy mat                                                     -- 268
  let h2 := r.1.write r.2 "periodic" p                                    -- 269
  wrap h2 r.2

/-- `Mesh(net)` (`mesh.py:125-127,167-177`): a plain `DataFrame` gets a copy of `net.attrs`, and is wrapped. -/
def meshAttrs {V : Type} (h : Heap V) (net : Nat) : Heap V × Nat :=
  let r := h.copy net                                                     -- 177
  wrap r.1 r.2

/-- `Mat(n, size)` (`mat.py:146-148,227-229`): `attrs` of a plain frame, two keys written, wrapped. -/
def matAttrs {V : Type} (h : Heap V) (n size : V) : Heap V × Nat :=
  let r := h.fresh
  let h2 := (r.1.write r.2 "n" n).write r.2 "size" size
  wrap h2 r.2

/-- `Stack(mat, net)` for a non-empty mat (`net.py:574,580-588`): a new `Net(mat, **net.attrs)`, a copy when a threshold selects
rows (`net[mask > 0]` makes a deep copy of attrs), then wrapped. -/
def stackAttrs {V : Type} (h : Heap V) (mat : Nat) (p : V) (threshold : Bool) : Heap V × Nat :=
  let r := netAttrs h mat p                                               -- 574
  let r2 := if threshold then r.1.copy r.2 else r                         -- 584
  wrap r2.1 r2.2                                                          -- 588

/-- `Stack(mat, net)` for an empty mat (`net.py:588`): `Stack(net)`. -/
def stackAttrsEmpty {V : Type} (h : Heap V) (net : Nat) : Heap V × Nat := wrap h net

end Fibermat
