import Verif.Model.Tree
/-!
# The registries of a document

`AutosarTopLevelStructure/__init__.py:99-175,258-352` and `models/utils/uuid_mgr.py`.
Path lookup (`self.find`) is a parameter `find : String → Except PyErr (Option Nat)`; it is
`World.find` of `Verif/Model/Tree.lean`.
-/
namespace Verif.Model

/-- `d[k] = v` on an insertion-ordered dictionary -/
def dset {κ α : Type} [DecidableEq κ] (k : κ) (v : α) : List (κ × α) → List (κ × α)
  | [] => [(k, v)]
  | (k', v') :: r => if k = k' then (k', v) :: r else (k', v') :: dset k v r

/-- an `ARObject` as seen by the UUID index: identity and `uuid` -/
structure UObj where
  id : Nat
  uuid : Option String
  deriving DecidableEq, Repr

namespace UUIDMgr

/-- `uuid_mgr.py:19-26` `addObject` -/
def addObject (m : List (String × List UObj)) (o : UObj) : List (String × List UObj) :=
  match o.uuid with
  | none => m
  | some u =>
    match m.lookup u with
    | none => dset u [o] m
    | some l => dset u (l ++ [o]) m

/-- `uuid_mgr.py:28-32` `getObjects` -/
def getObjects (m : List (String × List UObj)) (u : String) : List UObj :=
  match m.lookup u with
  | some l => l
  | none => []

/-- `uuid_mgr.py:34-38` `getDuplicateUUIDs` -/
def getDuplicateUUIDs (m : List (String × List UObj)) : List String :=
  if m.length > 0 then m.map (·.1) else []

/-- `cli/uuid_checker_cli.py:61-64`: the UUIDs the checker writes to its report -/
def cliReport (m : List (String × List UObj)) : List String :=
  (getDuplicateUUIDs m).filter fun u => (getObjects m u).length > 1

def run (objs : List UObj) : List (String × List UObj) := objs.foldl addObject []

end UUIDMgr

/-- the registries of a document -/
structure Registry where
  schema_location : Option String
  appl_impl : List (Option String × Option String)
  impl_appl : List (Option String × Option String)
  behavior_impl : List (String × String)
  impl_behavior : List (String × String)
  uuid_mgr : List (String × List UObj)
  /-- short name ↦ object identity -/
  systems : List (String × Nat)
  compositions : List (String × Nat)
  /-- (short name, object identity) -/
  root : Option (String × Nat)
  adminData : Option Nat
  fileInfoComment : Option Nat
  introduction : Option Nat
  timestamp : Option String
  uuid : Option String
  deriving DecidableEq, Repr

namespace Registry

/-- state after `__init__` (`__init__.py:99-121`, which ends with `clear()`; `ArObject.py:20-28`) -/
def fresh : Registry := ⟨none, [], [], [], [], [], [], [], none, none, none, none, none, none⟩

/-- `clear`, `__init__.py:155-175`; `CollectableElement.__init__` calls `ARObject.__init__`, which resets
timestamp and UUID -/
def clear (d : Registry) : Registry :=
  { d with
    schema_location := none, appl_impl := [], impl_appl := [], behavior_impl := [], impl_behavior := [],
    uuid_mgr := [], systems := [], compositions := [], root := none, adminData := none,
    fileInfoComment := none, introduction := none, timestamp := none, uuid := none }

/-- a reference object: `none` is a missing reference; its text may be missing -/
abbrev Ref := Option (Option String)

/-- `addDataTypeMap`, `__init__.py:271-275` -/
def addDataTypeMap (d : Registry) (appl impl : Ref) : Registry :=
  match appl, impl with
  | some a, some i => { d with appl_impl := dset a i d.appl_impl, impl_appl := dset i a d.impl_appl }
  | _, _ => d

/-- `self.find(text)` where the text may be `None` (`None.split` raises `AttributeError`) -/
def findText (find : String → Except PyErr (Option Nat)) : Option String → Except PyErr (Option Nat)
  | none => .error .attributeError
  | some s => find s

/-- `convertToImplementationDataType`, `__init__.py:277-281` -/
def convertToImplementationDataType (find : String → Except PyErr (Option Nat)) (d : Registry) (a : String) :
    Except PyErr (Option Nat) :=
  match d.appl_impl.lookup (some a) with
  | none => .error .indexError
  | some i => findText find i

/-- `convertToApplicationDataType`, `__init__.py:283-287` -/
def convertToApplicationDataType (find : String → Except PyErr (Option Nat)) (d : Registry) (i : String) :
    Except PyErr (Option Nat) :=
  match d.impl_appl.lookup (some i) with
  | none => .error .indexError
  | some a => findText find a

/-- `addImplementationBehaviorMap`, `__init__.py:301-303` -/
def addImplementationBehaviorMap (d : Registry) (impl behavior : String) : Registry :=
  { d with behavior_impl := dset behavior impl d.behavior_impl, impl_behavior := dset impl behavior d.impl_behavior }

/-- `getBehavior`, `__init__.py:305-308` -/
def getBehavior (find : String → Except PyErr (Option Nat)) (d : Registry) (impl : String) : Except PyErr (Option Nat) :=
  match d.impl_behavior.lookup impl with
  | some b => find b
  | none => .ok none

/-- `getImplementation`, `__init__.py:310-313` -/
def getImplementation (find : String → Except PyErr (Option Nat)) (d : Registry) (b : String) : Except PyErr (Option Nat) :=
  match d.behavior_impl.lookup b with
  | some i => find i
  | none => .ok none

/-- `addSystem`, `__init__.py:315-318` -/
def addSystem (d : Registry) (n : String) (o : Nat) : Registry :=
  if (d.systems.lookup n).isSome then d else { d with systems := dset n o d.systems }

/-- `getSystems`, `__init__.py:320-321` -/
def getSystems (d : Registry) : List (String × Nat) := sortBy (·.1) d.systems

/-- `addCompositionSwComponentType`, `__init__.py:329-334` -/
def addComposition (d : Registry) : Option (String × Nat) → Registry
  | none => d
  | some (n, o) => if (d.compositions.lookup n).isSome then d else { d with compositions := dset n o d.compositions }

/-- `getCompositionSwComponentType`, `__init__.py:326-327`: plain dictionary access -/
def getComposition (d : Registry) (n : String) : Except PyErr Nat :=
  match d.compositions.lookup n with
  | some o => .ok o
  | none => .error .keyError

/-- `setRootSwCompositionPrototype`, `__init__.py:292-299` -/
def setRoot (d : Registry) : Option (String × Nat) → Except PyErr Registry
  | none => .ok d
  | some (n, o) =>
    match d.root with
    | some (m, _) => if n ≠ m then .error .valueError else .ok d
    | none => .ok { d with root := some (n, o) }

/-- `release_xsd_mappings`, `__init__.py:102-119` -/
def releases : List (String × String) :=
  [("4.0.3", "AUTOSAR_4-0-3.xsd"), ("4.1.0", "AUTOSAR_4-1-0.xsd"), ("4.1.1", "AUTOSAR_4-1-1.xsd"),
   ("4.1.2", "AUTOSAR_4-1-2.xsd"), ("4.1.3", "AUTOSAR_4-1-3.xsd"), ("4.2.1", "AUTOSAR_4-2-1.xsd"),
   ("4.2.2", "AUTOSAR_4-2-2.xsd"), ("4.3.0", "AUTOSAR_00043.xsd"), ("4.3.1", "AUTOSAR_00045.xsd"),
   ("4.4.0", "AUTOSAR_00047.xsd"), ("R19-11", "AUTOSAR_00048.xsd"), ("R20-11", "AUTOSAR_00049.xsd"),
   ("R21-11", "AUTOSAR_00050.xsd"), ("R22-11", "AUTOSAR_00051.xsd"), ("R23-11", "AUTOSAR_00052.xsd"),
   ("R24-11", "AUTOSAR_00053.xsd")]

/-- `setARRelease`, `__init__.py:347-351` -/
def setARRelease (d : Registry) (release : String) : Except PyErr Registry :=
  match releases.lookup release with
  | none => .error .valueError
  | some x => .ok { d with schema_location := some ("http://autosar.org/schema/r4.0 " ++ x) }

/-- One API call on the registries; a call that raises leaves the document as it is. -/
inductive Op
  | dataTypeMap (appl impl : Ref)
  | behaviorMap (impl behavior : String)
  | addObject (o : UObj)
  | addSystem (n : String) (o : Nat)
  | addComposition (c : Option (String × Nat))
  | setRoot (r : Option (String × Nat))
  | setRelease (r : String)
  | setAdminData (v : Option Nat)
  | removeAdminData
  | setFileInfoComment (v : Option Nat)
  | setIntroduction (v : Option Nat)
  | setSchema (s : Option String)
  | setAttrs (timestamp uuid : Option String)
  | clear

/-- `__init__.py:123-149` for the plain setters; `addARObject` `:339-342` -/
def step (d : Registry) : Op → Registry
  | .dataTypeMap a i => d.addDataTypeMap a i
  | .behaviorMap i b => d.addImplementationBehaviorMap i b
  | .addObject o => { d with uuid_mgr := UUIDMgr.addObject d.uuid_mgr o }
  | .addSystem n o => d.addSystem n o
  | .addComposition c => d.addComposition c
  | .setRoot r => match d.setRoot r with | .ok d' => d' | .error _ => d
  | .setRelease r => match d.setARRelease r with | .ok d' => d' | .error _ => d
  | .setAdminData v => match v with | some v => { d with adminData := some v } | none => d
  | .removeAdminData => { d with adminData := none }
  | .setFileInfoComment v => { d with fileInfoComment := v }
  | .setIntroduction v => { d with introduction := v }
  | .setSchema s => { d with schema_location := s }
  | .setAttrs t u => { d with timestamp := t, uuid := u }
  | .clear => d.clear

def run (ops : List Op) : Registry := ops.foldl step fresh

end Registry

/-! ## Data type resolution -/

/-- the `category` attribute of a data type: unset, an `ARLiteral`/`CategoryString` object (what the parser
and `setCategory` store, `arxml_parser.py` `readIdentifiable`, `Identifiable.py:560-575`), or a bare `str`
assigned to the attribute.  No class of the repository defines `__eq__`, so only a bare `str` can be equal
to the constants `getDataType` compares with. -/
inductive Category
  | unset
  | object (text : String)
  | bare (text : String)
  deriving DecidableEq, Repr

/-- Python `category == s` -/
def Category.eqStr : Category → String → Bool
  | .bare t, s => t == s
  | _, _ => false

/-- a type as seen by `getDataType` -/
structure DType where
  /-- `isinstance(t, ImplementationDataType) or isinstance(t, SwBaseType)` -/
  isImplOrBase : Bool
  category : Category
  /-- `swDataDefProps.implementationDataTypeRef.value` (`none`: an attribute on the way is `None`) -/
  implRef : Option String
  /-- `swPointerTargetProps.getTargetCategory() == "VALUE"` holds only for a bare `str` -/
  targetCategory : Category
  /-- `swPointerTargetProps.getSwDataDefProps().getBaseTypeRef()` -/
  baseRef : Option String
  deriving DecidableEq, Repr

/-- the result of resolving within a recursion budget -/
inductive Resolve
  | type (t : DType)
  | error (e : PyErr)
  /-- budget exhausted: Python's `RecursionError` when it happens for every budget -/
  | timeout
  deriving DecidableEq, Repr

/-- `getDataType`, `AutosarTopLevelStructure/__init__.py:258-269`; `env` is `self.find` followed by looking at
the object (`none` = `find` returned `None`, for which the recursive call raises `ValueError`). -/
def getDataType (env : String → Option DType) : Nat → Option DType → Resolve
  | 0, _ => .timeout
  | _ + 1, none => .error .valueError
  | fuel + 1, some t =>
    if t.isImplOrBase then
      if t.category.eqStr "TYPE_REFERENCE" then
        match t.implRef with
        | none => .error .attributeError
        | some r => getDataType env fuel (env r)
      else if t.category.eqStr "DATA_REFERENCE" && t.targetCategory.eqStr "VALUE" then
        match t.baseRef with
        | none => .error .attributeError
        | some r => getDataType env fuel (env r)
      else .type t
    else .error .valueError

end Verif.Model
