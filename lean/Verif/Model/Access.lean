import Verif.Model.Key
/-!
# Accessor methods of the model classes

Almost all of the 5 480 methods of `src/armodel/models/**` have one of three shapes.

```python
def getX(self): return self.f

def setX(self, value):            # with or without the test
    if value is not None:
        self.f = value
    return self

def addX(self, value):            # with or without the tests
    if value is not None and value not in self.f:
        self.f.append(value)
    return self
```

`Verif/Gen/AccessTable.lean` lists every method of every class with its shape; this file gives the meaning of
the shapes on the attribute dictionary of an object.

Simplifications: an argument that is a list is stored, not shared (in Python a caller that keeps the list
can change it later); constructor arguments are some value (`PV.other`).
-/
namespace Verif.Model

/-- The shape of a method body. -/
inductive Acc
  /-- `return self.f`, e.g. `Identifiable.getShortNameFragments` -/
  | get (f : Key)
  /-- `self.f = value`; `ign`: inside `if value is not None:` -/
  | set (f : Key) (ign : Bool)
  /-- `self.f.append(value)`; `ign`: inside `if value is not None`, `dedup`: inside `if value not in self.f` -/
  | add (f : Key) (ign dedup : Bool)
  /-- any other body (`createX`, typed views, computed values, properties) -/
  | other
  deriving DecidableEq, Repr

/-- What a constructor assigns to an attribute. -/
inductive InitVal
  /-- `None` -/
  | none
  /-- `[]` -/
  | nil
  /-- a parameter of the constructor -/
  | arg
  /-- anything else: `{}`, a string, an object -/
  | other
  deriving DecidableEq, Repr

/-- A statement of a constructor. -/
inductive InitStep
  /-- `self.f = v` -/
  | field (f : Key) (v : InitVal)
  /-- `super().__init__(...)` with `n` arguments -/
  | sup (n : Nat)
  /-- `B.__init__(self, ...)` with `n` arguments besides `self` -/
  | base (b : Key) (n : Nat)
  /-- `if type(self) is C: raise TypeError("C is an abstract class.")` -/
  | guard (c : Key)
  deriving DecidableEq, Repr

/-- A class: whether `ABC` is one of its bases, its constructor (if it has its own) with the number of its parameters besides `self`, and
its own methods. -/
structure ClassAcc where
  abc : Bool
  init : Option (Nat × List InitStep)
  methods : List (Key × Acc)
  deriving DecidableEq, Repr

/-- A Python value as seen by the accessors: `None`, a list, a value given by the caller, or a value made by a
constructor.  `α` is the type of the objects a caller passes. -/
inductive PV (α : Type)
  | none
  | val (a : α)
  | list (l : List (Option α))
  | other
  deriving DecidableEq, Repr

/-- The attribute dictionary `self.__dict__`; `none` where there is no such attribute. -/
abbrev Attrs (α : Type) := Key → Option (PV α)

/-- assignment to an attribute -/
def Attrs.assign {α : Type} (o : Attrs α) (f : Key) (v : PV α) : Attrs α := fun k => if k = f then some v else o k

/-- A call of a setter or adder; `none` as the argument of an adder is Python's `None`. -/
inductive Call (α : Type)
  | set (m : Key) (v : PV α)
  | add (m : Key) (v : Option α)
  deriving DecidableEq, Repr

/-- the method called -/
def Call.method {α : Type} : Call α → Key
  | .set m _ => m
  | .add m _ => m

section
variable {α : Type} [DecidableEq α]

/-- the body of a getter; reading an attribute that does not exist raises `AttributeError` -/
def Acc.read (a : Acc) (o : Attrs α) : Except String (PV α) :=
  match a with
  | .get f => match o f with
    | some v => .ok v
    | none => .error "AttributeError"
  | _ => .error "not a getter"

/-- the body of a setter -/
def Acc.runSet (a : Acc) (v : PV α) (o : Attrs α) : Except String (Attrs α) :=
  match a with
  | .set f ign => if ign = true ∧ v = .none then .ok o else .ok (o.assign f v)
  | _ => .error "not a setter"

/-- the body of an adder; `append` on something that is not a list raises -/
def Acc.runAdd (a : Acc) (v : Option α) (o : Attrs α) : Except String (Attrs α) :=
  match a with
  | .add f ign dedup =>
    if ign = true ∧ v = none then .ok o
    else match o f with
      | some (.list l) => if dedup = true ∧ v ∈ l then .ok o else .ok (o.assign f (.list (l ++ [v])))
      | _ => .error "AttributeError"
  | _ => .error "not an adder"

end

/-- the value a constructor assigns -/
def InitVal.toPV {α : Type} : InitVal → PV α
  | .none => .none
  | .nil => .list []
  | .arg => .other
  | .other => .other

end Verif.Model
