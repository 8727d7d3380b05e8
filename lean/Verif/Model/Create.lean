import Verif.Model.Collection
import Verif.Model.Key
/-!
# The get-or-create methods of the model classes

`src/armodel/models/**` contains about 350 methods `createX(short_name)`.  They are instances of a few
textual patterns; `Verif/Gen/CreateTable.lean` lists every method with the pattern it has.  This file
gives the semantics of the patterns.

A pattern has
* a guard deciding whether a new object is constructed,
* optionally `self.addElement(new)`,
* optionally `self.<list>.append(new)` or `self.<field> = new`,
* a returned expression.
-/
namespace Verif.Model

/-- The condition under which a new object is constructed. -/
inductive Guard
  /-- `if not self.IsElementExists(short_name, T):` e.g. `ARPackage.py:750` -/
  | typed
  /-- `if not self.IsElementExists(short_name):` e.g. `ECUCParameterDefTemplate.py:1515` -/
  | untyped
  /-- `if short_name not in self.elements:` where the list holds objects, so that a string is never a
  member (no class defines `__eq__`) and the condition is always true,
  e.g. `BswModuleTemplate/BswInterfaces.py` `BswModuleEntry.createArgument` -/
  | never
  /-- `if self.<field> is None:` e.g. `SwComponentDocumentation.createSwCalibrationNotes` -/
  | fieldNone
  /-- `for x in self.<list>: if x.short_name == short_name: return x`
  e.g. `McDataInstance.createSubElement` -/
  | listName
  /-- no condition, e.g. `EcucDestinationUriDefSet.createEcucDestinationUriDef` -/
  | none
  deriving DecidableEq, Repr

/-- Where the new object is recorded besides `elements`. -/
inductive Store
  | nowhere | list | field
  deriving DecidableEq, Repr

/-- What is returned. -/
inductive Ret
  /-- `self.getElement(short_name, T)` -/
  | typed
  /-- `self.getElement(short_name)` -/
  | untyped
  /-- the new object (or the one found by the `listName` guard) -/
  | new
  /-- `self.<field>` -/
  | field
  deriving DecidableEq, Repr

structure Pattern where
  guard : Guard
  add : Bool
  store : Store
  ret : Ret
  deriving DecidableEq, Repr

/-- One create method: class, method, constructed class, pattern, the list or field it records the new
object in (`k!""` = 0 when there is none), source line. -/
structure CreateRow where
  cls : Key
  method : Key
  target : Key
  pattern : Pattern
  attr : Key
  line : Nat
  deriving DecidableEq, Repr

/-- The part of an object a create method works on: the collection, and the dedicated lists and fields. -/
structure Owner where
  coll : Coll
  lists : Key → List Elem
  fields : Key → Option Elem

namespace Owner

/-- a newly constructed owner: every `__init__` in `models/` initialises its lists with `[]` and the
fields written by create methods with `None` -/
def empty : Owner := ⟨Coll.empty, fun _ => [], fun _ => none⟩

/-- the condition of the create method -/
def construct (H : Hier) (r : CreateRow) (o : Owner) (n : String) : Bool :=
  match r.pattern.guard with
  | .typed => !o.coll.isElementExists H n (some r.target)
  | .untyped => !o.coll.isElementExists H n none
  | .never => true
  | .fieldNone => (o.fields r.attr).isNone
  | .listName => ((o.lists r.attr).find? fun a => a.name == n).isNone
  | .none => true

/-- the branch that constructs and records a new object -/
def record (H : Hier) (r : CreateRow) (o : Owner) (new : Elem) : Owner where
  coll := if r.pattern.add then o.coll.addElement H new else o.coll
  lists := match r.pattern.store with
    | .list => fun k => if k = r.attr then o.lists k ++ [new] else o.lists k
    | _ => o.lists
  fields := match r.pattern.store with
    | .field => fun k => if k = r.attr then some new else o.fields k
    | _ => o.fields

/-- Execute `createX(n)` given by row `r`, the constructor allocating object `fresh`: the owner afterwards. -/
def create (H : Hier) (r : CreateRow) (o : Owner) (n : String) (fresh : Nat) : Owner :=
  if o.construct H r n then o.record H r ⟨fresh, n, r.target⟩ else o

/-- Execute `createX(n)` given by row `r`: the value returned. -/
def result (H : Hier) (r : CreateRow) (o : Owner) (n : String) (fresh : Nat) : Except PyErr (Option Elem) :=
  match r.pattern.ret with
  | .typed => (o.create H r n fresh).coll.getElement H n (some r.target)
  | .untyped => (o.create H r n fresh).coll.getElement H n none
  | .new =>
    if o.construct H r n then .ok (some ⟨fresh, n, r.target⟩)
    else .ok ((o.lists r.attr).find? fun a => a.name == n)
  | .field => .ok ((o.create H r n fresh).fields r.attr)

/-- One API call on an owner. -/
inductive Op
  | create (r : CreateRow) (n : String) (fresh : Nat)
  | add (e : Elem)
  | remove (n : String) (t : Option Nat)

def step (H : Hier) (o : Owner) : Op → Owner
  | .create r n f => o.create H r n f
  | .add e => { o with coll := o.coll.addElement H e }
  | .remove n t => match o.coll.removeElement H n t with
    | .ok c => { o with coll := c }
    | .error _ => o

/-- A history of API calls on a new owner. -/
def run (H : Hier) (ops : List Op) : Owner := ops.foldl (step H) empty

end Owner
end Verif.Model
