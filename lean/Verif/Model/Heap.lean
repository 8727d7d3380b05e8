import Verif.Model.Accessors
/-!
# Objects and lists with identities

`Model/Access` describes one object, whose lists are part of it.  In Python an attribute holds a reference to a list: a setter stores the reference it is
given, a getter returns it, and `append` changes the list for all who have it.  Here many objects of any class live in one heap, lists have identities, and the
methods are those of `Gen/AccessTable` as in `Model/Access`.

Simplifications: the elements of a list are objects or `None`; what a constructor assigns besides `None` and `[]` is some value without parts.
-/
namespace Verif.Model

/-- The identity of a list: a constructor makes one for an attribute of the object, all others are made by the program. -/
inductive ListId
  | initial (o : Nat) (f : Key)
  | made (k : Nat)
  deriving DecidableEq, Repr

/-- What an attribute holds, or what is passed to a setter. -/
inductive HV
  | none
  | val (i : Nat)
  | list (l : ListId)
  | other
  deriving DecidableEq, Repr

/-- The classes of the objects that exist, their attributes, and the contents of the lists. -/
structure Heap where
  cls : Nat → Option Key
  attrs : Nat → Key → Option HV
  lists : ListId → List (Option Nat)

namespace Heap

/-- what a caller sees of a value -/
def shown (h : Heap) : HV → PV Nat
  | .none => .none
  | .val i => .val i
  | .list l => .list (h.lists l)
  | .other => .other

/-- what the getters of an object show -/
def view (h : Heap) (o : Nat) : Attrs Nat := fun f => (h.attrs o f).map h.shown

/-- what the constructors assign to an attribute: `[]` makes a new list (`Gen/AccessTable` has the constructors) -/
def initial (o : Nat) (f : Key) : InitVal → HV
  | .none => .none
  | .nil => .list (.initial o f)
  | .arg => .other
  | .other => .other

/-- a constructor call; `o` is the identity of the new object -/
def new (h : Heap) (o : Nat) (c : Key) : Heap where
  cls := fun i => if i = o then some c else h.cls i
  attrs := fun i f => if i = o then (inits c f).map (initial o f) else h.attrs i f
  lists := fun l => match l with
    | .initial i _ => if i = o then [] else h.lists l
    | .made _ => h.lists l

/-- assignment to an attribute -/
def assign (h : Heap) (o : Nat) (f : Key) (v : HV) : Heap :=
  { h with attrs := fun i g => if i = o ∧ g = f then some v else h.attrs i g }

/-- the program, or a method, changes a list -/
def store (h : Heap) (l : ListId) (xs : List (Option Nat)) : Heap := { h with lists := fun k => if k = l then xs else h.lists k }

/-- `o.setX(v)`: the bodies of setters (`Acc.runSet`), the method is looked up in the class of the object -/
def set (h : Heap) (o : Nat) (m : Key) (v : HV) : Except String Heap :=
  match (h.cls o).bind fun c => resolve c m with
  | none => .error "AttributeError"
  | some (.set f ign) => if ign = true ∧ v = .none then .ok h else .ok (h.assign o f v)
  | some _ => .error "not a setter"

/-- `o.addX(v)`: the bodies of adders (`Acc.runAdd`); objects are compared by identity (no class defines `__eq__`) -/
def add (h : Heap) (o : Nat) (m : Key) (v : Option Nat) : Except String Heap :=
  match (h.cls o).bind fun c => resolve c m with
  | none => .error "AttributeError"
  | some (.add f ign dedup) =>
    if ign = true ∧ v = none then .ok h
    else match h.attrs o f with
      | some (.list l) => if dedup = true ∧ v ∈ h.lists l then .ok h else .ok (h.store l (h.lists l ++ [v]))
      | _ => .error "AttributeError"
  | some _ => .error "not an adder"

/-- `o.getX()`: a list is returned itself, not a copy of it -/
def get (h : Heap) (o : Nat) (m : Key) : Except String HV :=
  match (h.cls o).bind fun c => resolve c m with
  | some (.get f) => match h.attrs o f with
    | some v => .ok v
    | none => .error "AttributeError"
  | some _ => .error "not a getter"
  | none => .error "AttributeError"

/-- no objects; the lists of the program are what they are -/
def empty (lists : ListId → List (Option Nat)) : Heap := ⟨fun _ => none, fun _ _ => none, lists⟩

end Heap
end Verif.Model
