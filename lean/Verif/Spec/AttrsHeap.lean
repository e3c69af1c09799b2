import Verif.Model.AttrsHeap

/-! # Specification of attribute sharing: histories of constructions and writes -/

namespace Fibermat.Spec
variable {V : Type}

/-- Writes to one dictionary. -/
def writes (h : Heap V) (a : Nat) (ws : List (String × V)) : Heap V := ws.foldl (fun h w => h.write a w.1 w.2) h

/-- One statement of a program using the library; objects are numbered by creation. -/
inductive Stmt (V : Type) where
  /-- `Mat(n, size)` -/
  | mat (n size : V)
  /-- `Net(obj, periodic=p)` of a mat -/
  | net (obj : Nat) (p : V)
  /-- `Mesh(obj)` of a net -/
  | mesh (obj : Nat)
  /-- `Stack(obj, net)` for a non-empty mat `obj`, with or without threshold -/
  | stack (obj : Nat) (p : V) (threshold : Bool)
  /-- `Mat(mat)`, `Net(net)`, `Stack(net)`, `Mesh(mesh)` -/
  | wrap (obj : Nat)
  /-- `obj.attrs[key] = v` -/
  | write (obj : Nat) (key : String) (v : V)

/-- State of a program: the heap and the dictionary of each object. -/
structure Prog (V : Type) where
  heap : Heap V
  objs : List Nat

/-- The statement only uses existing objects. -/
def Stmt.Ok (k : Nat) : Stmt V → Prop
  | .mat _ _ => True
  | .net i _ | .mesh i | .stack i _ _ | .wrap i | .write i _ _ => i < k

/-- Execute a statement. -/
def exec (s : Prog V) : Stmt V → Prog V
  | .mat n size => let r := matAttrs s.heap n size; ⟨r.1, s.objs ++ [r.2]⟩
  | .net i p => let r := netAttrs s.heap (s.objs.getD i 0) p; ⟨r.1, s.objs ++ [r.2]⟩
  | .mesh i => let r := meshAttrs s.heap (s.objs.getD i 0); ⟨r.1, s.objs ++ [r.2]⟩
  | .stack i p t => let r := stackAttrs s.heap (s.objs.getD i 0) p t; ⟨r.1, s.objs ++ [r.2]⟩
  | .wrap i => let r := Fibermat.wrap s.heap (s.objs.getD i 0); ⟨r.1, s.objs ++ [r.2]⟩
  | .write i key v => ⟨s.heap.write (s.objs.getD i 0) key v, s.objs⟩

/-- Execute a program. -/
def execAll (s : Prog V) (l : List (Stmt V)) : Prog V := l.foldl exec s

/-- Nothing exists before the program. -/
def start : Prog V := ⟨⟨0, fun _ _ => none⟩, []⟩

/-- The owner of each object: wrapping keeps the owner, everything else creates a new one (named by the object's number). -/
def owners (l : List (Stmt V)) : List Nat :=
  l.foldl (fun own st => match st with
    | .wrap i => own ++ [own.getD i 0]
    | .write _ _ _ => own
    | _ => own ++ [own.length]) []

/-- All statements only use objects created before them. -/
def WellFormed (l : List (Stmt V)) : Prop :=
  ∀ l1 st l2, l = l1 ++ st :: l2 → st.Ok (owners l1).length

/-- What an object reads. -/
def readAttr (s : Prog V) (i : Nat) (key : String) : Option V := s.heap.dict (s.objs.getD i 0) key

end Fibermat.Spec
