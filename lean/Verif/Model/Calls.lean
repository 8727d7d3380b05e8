import Verif.Model.Load
import Verif.Model.Registry
import Verif.Model.FileList
import Verif.Model.Markup
/-!
# What loading does to the registries of the document

While it reads, the parser calls `addARObject` (`abstract_arxml_parser.py:321-325`), `addImplementationBehaviorMap`
(`arxml_parser.py:3038-3041`, `:3047-3050`), `addCompositionSwComponentType` (`:4974-4975`), `addDataTypeMap` (`:4985-4986`),
`setRootSwCompositionPrototype` (`:8843-8847`) and `addSystem` (`:8861-8862`).  `Model/Codec.lean` leaves these calls out; this module
gives them as a list, for a file that is read without an exception, together with the tool that reports duplicate UUIDs.

Simplifications:
* Inside an object the calls are in the order of the slots.  In a loop that sorts children into several attributes these are not the
  order of the children.  (For the packages and elements of a package they are.)
* Whether an accessor for a scalar registers the object it makes (some only make a literal that is thrown away) is a parameter.
  Those for references and `element.text` do not.
* The full name of an object consists of the short names of the objects it is in (C09).
* A reference without text is a reference with the empty text.
-/
namespace Verif.Model
open Verif

/-- a call of a method of the document while a file is read; an object is given by the short names that lead to it -/
inductive DocCall
  /-- `addARObject` for an object with a UUID (objects without are ignored, `uuid_mgr.py:20-21`); the class `0` stands for the class of
  a scalar -/
  | object (uuid : Str) (cls : Key) (names : List Str)
  | system (names : List Str)
  | composition (names : List Str)
  /-- `addImplementationBehaviorMap`, if there is a reference; the class of the implementation -/
  | behavior (cls : Key) (names : List Str) (ref : Option Str)
  /-- `addDataTypeMap`: the texts of the references -/
  | map (appl impl : Option Str)
  /-- `setRootSwCompositionPrototype` -/
  | root (names : List Str)
  deriving DecidableEq, Repr

/-- the slots of a method, with those that are read twice (`dropDup` in `Gen/ReadTable.lean`) -/
def twice : List (Key × List RSlot) :=
  [(k!"getQueuedReceiverComSpec_QueuedReceiverComSpec", Gen.R.getQueuedReceiverComSpec_QueuedReceiverComSpec),
   (k!"getTextValueSpecification_TextValueSpecification", Gen.R.getTextValueSpecification_TextValueSpecification),
   (k!"getNonqueuedReceiverComSpec_NonqueuedReceiverComSpec", Gen.R.getNonqueuedReceiverComSpec_NonqueuedReceiverComSpec),
   (k!"getNumericalValueSpecification_NumericalValueSpecification", Gen.R.getNumericalValueSpecification_NumericalValueSpecification),
   (k!"getApplicationValueSpecification_ApplicationValueSpecification", Gen.R.getApplicationValueSpecification_ApplicationValueSpecification)]

/-- the methods of the reader, statement by statement -/
def allReaders (k : Key) : Option RBody := (readers k).map fun b => match twice.lookup k with
  | some l => ⟨b.cls, l⟩
  | none => b

/-- is this what `readARObjectAttributes` reads, `abstract_arxml_parser.py:323` -/
def isUuid (s : RSlot) : Bool := match s.item with
  | .attr n .raw => n == k!"UUID"
  | _ => false

/-- does the slot read the short name -/
def isName (s : RSlot) : Bool := match s.item with
  | .name => true
  | _ => false

/-- can the accessor register the object it makes -/
def mayNote (s : RSlot) : RKind → Bool
  | .ref => false
  | .refTo _ => false
  | .refDest => false
  | .raw => false
  | .rawNonblank => false
  | _ => match s.path with
    | .nil => false
    | _ => true

/-- the names that lead to an object read with a method -/
def ownNames (b : RBody) (names : List Str) (x : Xml) : List Str :=
  if b.slots.any isName then names ++ [elemName x] else names

/-- the text of the first child with a tag -/
def refText (t : Key) (x : Xml) : Option Str := (x.kids.find? (tagIs t)).map Xml.text

/-- the calls at the end of some methods (for the lines see above) -/
def callsAfter (c : Key) (names : List Str) (x : Xml) : List DocCall :=
  if c = k!"System" then [.system names]
  else if c = k!"CompositionSwComponentType" then [.composition names]
  else if c = k!"SwcImplementation" ∨ c = k!"BswImplementation" then [.behavior c names (refText k!"BEHAVIOR-REF" x)]
  else if c = k!"DataTypeMap" then [.map (refText k!"APPLICATION-DATA-TYPE-REF" x) (refText k!"IMPLEMENTATION-DATA-TYPE-REF" x)]
  else if c = k!"RootSwCompositionPrototype" then [.root names]
  else []

section
variable (sc : RKind → Xml → Bool) (rd : Key → List Str → Xml → List DocCall)

/-- the call for an object that has the attributes of an element -/
def noteUuid (c : Key) (names : List Str) (y : Xml) : List DocCall := match y.attr k!"UUID" with
  | none => []
  | some u => [.object u c names]

/-- the calls for one selected element -/
def slotCalls (c : Key) (names : List Str) (s : RSlot) (y : Xml) : List DocCall :=
  match s.item with
  | .prim k => if mayNote s k && sc k y then noteUuid 0 names y else []
  | .objs alts => match altOf alts y.tag with
    | none => []
    | some k => rd k names y
  | _ => if isUuid s then noteUuid c names y else []

/-- the calls of a method -/
def bodyCalls (b : RBody) (names : List Str) (x : Xml) : List DocCall :=
  (b.slots.flatMap fun s => (select s.path x).flatMap (slotCalls sc rd b.cls (ownNames b names x) s)) ++ callsAfter b.cls (ownNames b names x) x
end

section
variable (sc : RKind → Xml → Bool)

/-- the calls of a method and the methods it calls, with a bound on the depth of the recursion -/
def objCalls : Nat → Key → List Str → Xml → List DocCall
  | 0, _, _, _ => []
  | n + 1, k, names, x => match allReaders k with
    | none => []
    | some b => bodyCalls sc (objCalls n) b names x

/-- the calls for a file -/
def fileCalls (x : Xml) : List DocCall := objCalls sc x.depth k!"load" [] x

end

/-- `BswImplementation.setBehaviorRef` ignores `None` (`BswModuleTemplate/BswImplementation.py:69-73`; `SwcImplementation.setBehaviorRef` does not,
`SWComponentTemplate/SwcImplementation.py:42-53`): an implementation that is read again, without a reference, still has the one it had.
`known` are the references so far, the latest first. -/
def keepRefs (known : List (List Str × Str)) : List DocCall → List DocCall
  | [] => []
  | .behavior c ns (some r) :: l => .behavior c ns (some r) :: keepRefs (if c = k!"BswImplementation" then (ns, r) :: known else known) l
  | .behavior c ns none :: l => .behavior c ns (if c = k!"BswImplementation" then known.lookup ns else none) :: keepRefs known l
  | e :: l => e :: keepRefs known l

/-- the calls of loading files one after the other -/
def filesCalls (sc : RKind → Xml → Bool) (xs : List Xml) : List DocCall := keepRefs [] (xs.flatMap (fileCalls sc))

/-- a short name, a path -/
def callName (names : List Str) : String := String.ofList (names.getLastD [])
def callPath (names : List Str) : String := String.ofList (names.flatMap fun n => '/' :: n)

/-- a call as a call of `Model/Registry.lean`; an object is identified by the number of the call.  (`addDataTypeMap` without references, which does
nothing, stands for no call.) -/
def DocCall.op (i : Nat) : DocCall → Registry.Op
  | object u _ _ => .addObject ⟨i, some (String.ofList u)⟩
  | system ns => .addSystem (callName ns) i
  | composition ns => .addComposition (some (callName ns, i))
  | behavior _ ns (some r) => .behaviorMap (callPath ns) (String.ofList r)
  | behavior _ _ none => .dataTypeMap none none
  | map a i => .dataTypeMap (a.map fun s => some (String.ofList s)) (i.map fun s => some (String.ofList s))
  | root ns => .setRoot (some (callName ns, i))

/-- the registries after the calls; that `setRootSwCompositionPrototype` raises `ValueError` for a second name
(`AutosarTopLevelStructure/__init__.py:292-299`) is only logged, `parser/arxml_parser.py:8846-8847` -/
def registryOf (cs : List DocCall) : Registry := Registry.run (cs.zipIdx.map fun e => e.1.op e.2)

/-! ## `uuid-checker` -/

/-- the line for an object, `cli/uuid_checker_cli.py:65-69`; an object that has no short name is not supported -/
def uuidLine (cs : List DocCall) (o : UObj) : Option (List Str × Key) := match cs[o.id]? with
  | some (.object _ c names) => if armodel.sub c k!"Referrable" then some (names, c) else none
  | _ => none

/-- the report, `cli/uuid_checker_cli.py:59-69`: each duplicate with the names and the class of the objects; nothing if an exception is
raised -/
def uuidReport (cs : List DocCall) : Option (List (String × List (List Str × Key))) :=
  let m := (registryOf cs).uuid_mgr
  (UUIDMgr.cliReport m).mapM fun u => ((UUIDMgr.getObjects m u).mapM (uuidLine cs)).map fun l => (u, l)

/-- `cli/uuid_checker_cli.py:43-69`; `warning` is the option `-w` -/
def uuidCheck (py : Py) (nc : NameChars) (sc : RKind → Xml → Bool) (fs : Fs) (warning : Bool) (input : Str) :
    Option (List (String × List (List Str × Key))) :=
  match cliParse py fs [] [input] with
  | .error _ => none
  | .ok names => match names.mapM fun f => (fs.text f).bind (parseFile nc) with
    | none => none
    | some xs => match loadAll py (!warning) (newDoc py) xs with
      | .error _ => none
      | .ok _ => uuidReport (filesCalls sc xs)

end Verif.Model
