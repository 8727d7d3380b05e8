/-!
# Element collections

Model of the collection code shared by `CollectableElement`
(`GenericStructure/GeneralTemplateClasses/Identifiable.py:229-342`) and
`Identifiable` (same file, `:394-482`, textually identical methods).

Simplifications:
* An element is represented by its object identity, its short name and its
  concrete class.  The short name of an element is not changed while it is in
  a collection (the `shortName` setter is outside the model).
* Python exceptions are values (`PyErr`).
* `dict` is an insertion ordered association list.
-/
namespace Verif.Model

/-- The exceptions that the modelled code can raise. -/
inductive PyErr
  | keyError | indexError | stopIteration | valueError | notImplemented | typeError | attributeError | recursionError
  deriving DecidableEq, Repr

deriving instance DecidableEq for Except

/-- A class hierarchy: `sub c d` is `issubclass(c, d)`. -/
structure Hier where
  sub : Nat → Nat → Bool
  refl : ∀ c, sub c c = true
  trans : ∀ a b c, sub a b = true → sub b c = true → sub a c = true

/-- A `Referrable` as seen by a collection. -/
structure Elem where
  /-- object identity -/
  id : Nat
  /-- `short_name` -/
  name : String
  /-- `type(element)` -/
  cls : Nat
  deriving DecidableEq, Repr

/-- `Identifiable.py:244-251` : the two attributes `elements` and `element_mappings`. -/
structure Coll where
  elements : List Elem
  mappings : List (String × List Elem)
  deriving DecidableEq, Repr

namespace Coll

/-- `Identifiable.py:244-251` `__init__`. -/
def empty : Coll := ⟨[], []⟩

/-- `isinstance(a, type)`. -/
def inst (H : Hier) (t : Nat) (a : Elem) : Bool := H.sub a.cls t

/-- `self.element_mappings[short_name]` (`none` = key missing). -/
def slot (c : Coll) (n : String) : Option (List Elem) := c.mappings.lookup n

/-- dictionary update `d[k] = f(d[k])` for a present key -/
def alter (n : String) (f : List Elem → List Elem) : List (String × List Elem) → List (String × List Elem)
  | [] => []
  | (k, v) :: r => if n = k then (k, f v) :: r else (k, v) :: alter n f r

/-- `Identifiable.py:281-288` / `:421-428` `getElements`. -/
def getElements (c : Coll) : List Elem := c.elements

/-- `Identifiable.py:253-261` / `:394-401` `getTotalElement`. -/
def getTotalElement (c : Coll) : Nat := c.elements.length

/-- `Identifiable.py:327-342` / `:467-482` `IsElementExists`. -/
def isElementExists (H : Hier) (c : Coll) (n : String) : Option Nat → Bool
  | none => (c.slot n).isSome
  | some t =>
    match c.slot n with
    | some l => l.any (inst H t)
    | none => false

/-- `Identifiable.py:290-305` / `:430-445` `addElement`. -/
def addElement (H : Hier) (c : Coll) (e : Elem) : Coll :=
  if c.isElementExists H e.name (some e.cls) then c
  else
    let m := if (c.slot e.name).isSome then c.mappings else c.mappings ++ [(e.name, [])]
    { elements := c.elements ++ [e]
      mappings := alter e.name (fun l => l ++ [e]) m }

/-- `Identifiable.py:307-325` / `:447-465` `getElement`. -/
def getElement (H : Hier) (c : Coll) (n : String) (t : Option Nat) : Except PyErr (Option Elem) :=
  match c.slot n with
  | none => .ok none
  | some l =>
    match t with
    | some t =>
      match l.filter (inst H t) with
      | [] => .ok none
      | a :: _ => .ok (some a)
    | none =>
      match l with
      | [] => .error .indexError
      | a :: _ => .ok (some a)

/-- `Identifiable.py:263-279` / `:403-419` `removeElement`.
`next(filter(..))` on an exhausted iterator raises `StopIteration`. -/
def removeElement (H : Hier) (c : Coll) (n : String) (t : Option Nat) : Except PyErr Coll :=
  match c.slot n with
  | none => .error .keyError
  | some l =>
    let item : Except PyErr Elem :=
      match t with
      | none => match l with
        | [] => .error .indexError
        | a :: _ => .ok a
      | some t => match l.filter (inst H t) with
        | [] => .error .stopIteration
        | a :: _ => .ok a
    match item with
    | .error e => .error e
    | .ok a => .ok
      { elements := c.elements.erase a
        mappings := alter n (fun l => l.erase a) c.mappings }

/-- The typed get-or-create pattern, e.g. `ARPackage.py:749-753`
`createEcuAbstractionSwComponentType` (98 methods of this shape in `models/`):
`if not IsElementExists(n, T): addElement(T(self, n))` / `return getElement(n, T)`.
`fresh` is the identity of the object the constructor allocates. -/
def createTyped (H : Hier) (c : Coll) (n : String) (t : Nat) (fresh : Nat) : Coll × Except PyErr (Option Elem) :=
  let c' := if c.isElementExists H n (some t) then c else c.addElement H ⟨fresh, n, t⟩
  (c', c'.getElement H n (some t))

/-- One API call on a collection. -/
inductive Op
  /-- `addElement(e)` -/
  | add (e : Elem)
  /-- `createT(n)`, allocating object `fresh` -/
  | create (n : String) (t : Nat) (fresh : Nat)
  /-- `removeElement(n, t)` -/
  | remove (n : String) (t : Option Nat)

/-- Effect of one API call; a call that raises leaves the collection as it is. -/
def step (H : Hier) (c : Coll) : Op → Coll
  | .add e => c.addElement H e
  | .create n t f => (c.createTyped H n t f).1
  | .remove n t => match c.removeElement H n t with
    | .ok c' => c'
    | .error _ => c

/-- A history of API calls on a new collection. -/
def run (H : Hier) (ops : List Op) : Coll := ops.foldl (step H) empty

end Coll
end Verif.Model
