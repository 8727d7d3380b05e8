import Verif.Model.Rename
/-!
# Methods that work on plain lists

The few create and get methods that do not go through the index of a collection: they search a Python list and look up the current name of every
object, or they sort or filter a list.
-/
namespace Verif.Model.Plain

/-- The short names of all objects (the constructors accept `None`), and one list attribute that holds objects: `ecucQueries` of
`EcucConditionSpecification`, `EcucValidationCondition` and `EcucDerivationSpecification` (`ECUCParameterDefTemplate.py`), `hwPinGroups` of
`HwElement` (`EcuResourceTemplate/__init__.py:556`). -/
structure Named where
  names : Nat → Option String
  items : List Nat

namespace Named

/-- `getEcucQuery(n)`, `ECUCParameterDefTemplate.py:76-83`, `144-151`, `831-838` -/
def get (s : Named) (n : Option String) : Option Nat := s.items.find? fun q => s.names q == n

/-- `obj.shortName = n`, `Identifiable.py:53-55` -/
def rename (s : Named) (i : Nat) (n : Option String) : Named := { s with names := fun j => if j = i then n else s.names j }

/-- the constructor call and `append` of the create methods; `fresh` is the identity of the new object -/
def append (s : Named) (n : Option String) (fresh : Nat) : Named :=
  { names := fun j => if j = fresh then n else s.names j, items := s.items ++ [fresh] }

/-- `createEcucQuery(n)`, `ECUCParameterDefTemplate.py:63-74`, `131-142`, `818-829`: the list and the result -/
def createQuery (s : Named) (n : Option String) (fresh : Nat) : Named × Option Nat :=
  match n with
  | none => (s, none)
  | some _ =>
    match s.items.find? (fun q => s.names q == n) with
    | some q => (s, some q)
    | none => (s.append n fresh, some fresh)

/-- `HwElement.createHwPinGroup(n)`, `EcuResourceTemplate/__init__.py:592-605`; no result: `next` raises `StopIteration` -/
def createPinGroup (s : Named) (n : Option String) (fresh : Nat) : Named × Option Nat :=
  let s' := if s.items.any (fun g => s.names g == n) then s else s.append n fresh
  (s', s'.items.find? fun g => s'.names g == n)

end Named

/-- `ResourceConsumption.getMemorySection(n)`, `ResourceConsumption/__init__.py:457-467`, in a collection whose members may have been renamed; `t` is
the class `MemorySection` -/
def getSection (H : Hier) (s : Reg) (n : String) (t : Nat) : Option Ident := s.elements.find? fun o => H.sub o.cls t && s.names o.id == n

/-- `CryptoKeySlot.createKeySlotContent(n)`, `CryptoKeySlot.py:124-132`: the collection, the list `keySlotContents` and the result.  The test `short_name
not in self.elements` compares a string with objects and is always true. -/
def createSlotContent (H : Hier) (s : Reg) (contents : List Ident) (n : String) (t fresh : Nat) : Reg × List Ident × Ident :=
  ((s.rename fresh n).add H ⟨fresh, t⟩, contents ++ [⟨fresh, t⟩], ⟨fresh, t⟩)

/-- Exceptions of this file: what `sorted` raises for objects without `__lt__`, and what the use of an attribute of `None` raises. -/
inductive Err
  | typeError
  | attributeError
  deriving DecidableEq, Repr

/-- inserting into a sorted list with a comparison that may raise an exception -/
def insertBy (lt : α → α → Except Err Bool) (a : α) : List α → Except Err (List α)
  | [] => .ok [a]
  | b :: l => do
    if ← lt a b then return a :: b :: l
    return b :: (← insertBy lt a l)

/-- `sorted`, as an insertion sort: which sorting method it is does not matter for the result, nor for whether a comparison takes place at all -/
def sortedBy (lt : α → α → Except Err Bool) : List α → Except Err (List α)
  | [] => .ok []
  | a :: l => do insertBy lt a (← sortedBy lt l)

/-- `ValueList.getVfs()`, `DataDefProperties.py:1101-1102`: no class of the model defines `__lt__`, so `<` between two of its objects raises
`TypeError` -/
def getVfs (vf : List α) : Except Err (List α) := sortedBy (fun _ _ => .error .typeError) vf

/-- `filter(lambda a: a.getCategory().getText() == category, …)`, evaluated by `list`; `cat` is the text of the category of a descriptor, if it has one -/
def byCategory (cat : α → Option String) (c : String) : List α → Except Err (List α)
  | [] => .ok []
  | a :: l =>
    match cat a with
    | none => .error .attributeError
    | some t => do
      let r ← byCategory cat c l
      return if t == c then a :: r else r

/-- `Code.getArtifactDescriptors(category)`, `Implementation.py:189-204` -/
def getArtifactDescriptors (cat : α → Option String) (category : String) (ds : List α) : Except Err (List α) :=
  if category == "" then .ok ds else byCategory cat category ds

end Verif.Model.Plain
