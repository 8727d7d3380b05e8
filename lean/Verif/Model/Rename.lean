import Verif.Model.Collection
/-!
# Collections whose members are renamed

The collection code of `Model/Collection.lean` once more, now with the `shortName` setter (`Identifiable.py:48-55`): the name of an object is looked
up when it is needed, and objects are compared by identity.
-/
namespace Verif.Model

/-- an object: its identity and its class -/
structure Ident where
  id : Nat
  cls : Nat
  deriving DecidableEq, Repr

/-- The short names of all objects, and the attributes `elements` and `element_mappings` of one collection (`Identifiable.py:250-251`). -/
structure Reg where
  names : Nat → String
  elements : List Ident
  index : String → Option (List Ident)

namespace Reg

/-- a new collection, in a program whose objects have these names -/
def new (names : Nat → String) : Reg := ⟨names, [], fun _ => none⟩

/-- `isinstance(a, type)` -/
def inst (H : Hier) (t : Nat) (a : Ident) : Bool := H.sub a.cls t

/-- `IsElementExists(n, t)`, `Identifiable.py:327-342` -/
def exists? (H : Hier) (s : Reg) (n : String) (t : Nat) : Bool := ((s.index n).getD []).any (inst H t)

/-- `getElement(n, t)`, `Identifiable.py:307-325` -/
def get (H : Hier) (s : Reg) (n : String) (t : Nat) : Option Ident := (((s.index n).getD []).filter (inst H t)).head?

/-- `obj.shortName = n`, `Identifiable.py:53-55` -/
def rename (s : Reg) (i : Nat) (n : String) : Reg := { s with names := fun j => if j = i then n else s.names j }

/-- `addElement(e)`, `Identifiable.py:290-305` -/
def add (H : Hier) (s : Reg) (e : Ident) : Reg :=
  if s.exists? H (s.names e.id) e.cls then s
  else { s with
    elements := s.elements ++ [e]
    index := fun n => if n = s.names e.id then some ((s.index n).getD [] ++ [e]) else s.index n }

/-- the get-or-create methods (`Coll.createTyped`): the constructor names the new object -/
def create (H : Hier) (s : Reg) (n : String) (t : Nat) (fresh : Nat) : Reg :=
  if s.exists? H n t then s else (s.rename fresh n).add H ⟨fresh, t⟩

/-- `removeElement(n, t)`, `Identifiable.py:263-279`; if it raises an exception nothing changes -/
def remove (H : Hier) (s : Reg) (n : String) (t : Nat) : Reg :=
  match s.get H n t with
  | none => s
  | some a => { s with
      elements := s.elements.erase a
      index := fun m => if m = n then (s.index m).map (·.erase a) else s.index m }

end Reg
end Verif.Model
