import Verif.Model.Document
import Verif.Gen.OverTable
/-!
# Loading into a document that has contents already

`ARXMLParser.load(filename, document)` does not create a document.  It adds to the one it is given: `createARPackage(name)` and
the other create methods return an existing object of that name (C02, C03), whose attributes are then assigned again.  This
module gives the reader methods (`RBody`) that meaning.

What happens to an attribute of an object that is read again:
* values created by name: an existing one of the same class and name is read again, others are added (`intoNamed`);
* other attributes that are lists: the new values are added (`addX`);
* attributes that are no lists: the new value replaces the old one.  If there is none in the file most setters keep the old one
  (`if value is not None`), the setters listed in `Gen.overTable` do not.

Simplifications, in addition to those of `Model/Codec.lean`: `outside` is
* an element with the name of an existing element of another class, or of another attribute of the same object;
* a second object created in an attribute that is no list;
* an element with the name of an existing one if the create method makes a second object of that name (`RSlot.fresh`).
-/
namespace Verif.Model
open Verif

section
variable {F : Type}

/-- the short name of an element, `parser/abstract_arxml_parser.py:348-352` -/
def elemName (y : Xml) : Str := match select (.first [k!"SHORT-NAME"] .nil) y with
  | [] => []
  | z :: _ => z.text

/-- does a create method for class `c` find this value for this name -/
def isIt (c : Key) (n : Str) (v : MObj F) : Bool := v.cls == c && v.name == n

/-- replacing the first value with a property -/
def replaceE {α ε : Type} (p : α → Bool) (f : α → Except ε α) : List α → Except ε (List α)
  | [] => .ok []
  | v :: l =>
    if p v then match f v with
      | .error e => .error e
      | .ok w => .ok (w :: l)
    else match replaceE p f l with
      | .error e => .error e
      | .ok l => .ok (v :: l)

/-- `for x in l: ...` changing something, stopping at the first exception -/
def foldE {α β ε : Type} (f : β → α → Except ε β) : β → List α → Except ε β
  | b, [] => .ok b
  | b, x :: l => match f b x with
    | .error e => .error e
    | .ok b => foldE f b l

/-- the values of a list or the value of an attribute -/
def RSlot.isList (s : RSlot) : Bool := !s.path.single && !s.last

end

section
variable (py : Py) (strict : Bool) (T : Key → Option RBody)
variable (into : Key → Option (MObj py.F) → Xml → Except RErr (MObj py.F))

/-- one element created by name, then read (for instance `parser/arxml_parser.py:9407-9408`) -/
def putNamed (s : RSlot) (alts : List (Key × Key)) (old : List (MObj py.F)) (y : Xml) : Except RErr (List (MObj py.F)) :=
  match altOf alts y.tag with
  | none => .ok old
  | some k => match T k with
    | none => .error .fuel
    | some b =>
      if old.any (isIt b.cls (elemName y)) then
        if s.fresh then .error .outside
        else replaceE (isIt b.cls (elemName y)) (fun v => into k (some v) y) old
      else match into k none y with
        | .error e => .error e
        | .ok o => .ok (old ++ [o])

/-- the values of a slot after reading into an object that has the values `old` -/
def intoSlot (over : List Key) (x : Xml) (s : RSlot) (old : List (MObj py.F)) : Except RErr (List (MObj py.F)) :=
  match s.named, s.item with
  | true, .objs alts => match foldE (putNamed py T into s alts) old (select s.path x) with
    | .error e => .error e
    | .ok vs => if s.path.single && Nat.blt 1 vs.length then .error .outside else .ok vs
  | _, _ => match readSlot py strict (fun k y => into k none y) x s with
    | .error e => .error e
    | .ok vs =>
      if s.isList then .ok (old ++ vs)
      else if vs.isEmpty && !over.contains s.field then .ok old
      else .ok vs

/-- two lists in step, stopping at the first exception -/
def zipE {α β γ ε : Type} (f : α → β → Except ε γ) : List α → List β → Except ε (List γ)
  | x :: l, y :: r => match f x y with
    | .error e => .error e
    | .ok z => match zipE f l r with
      | .error e => .error e
      | .ok zs => .ok (z :: zs)
  | _, _ => .ok []

/-- the object a constructor makes: no attribute is set -/
def blankOf (b : RBody) : MObj py.F := .mk b.cls ((b.slots.map RSlot.key).map fun k => (k, []))

/-- a reader method applied to an object -/
def intoBody (over : List Key) (b : RBody) (o : MObj py.F) (x : Xml) : Except RErr (MObj py.F) :=
  match o with
  | .scal _ => .error .outside
  | .mk c fs =>
    if c = b.cls ∧ fs.map Prod.fst = b.slots.map RSlot.key then
      match zipE (intoSlot py strict T into over x) b.slots (fs.map Prod.snd) with
      | .error e => .error e
      | .ok vs =>
        let o := MObj.mk b.cls ((b.slots.map RSlot.key).zip vs)
        if namesOk b.slots o then .ok o else .error .outside
    else .error .outside

end

section
variable (py : Py) (strict : Bool) (T : Key → Option RBody) (over : Key → List Key)

/-- reading an element into an object (`none`: a new one) with a bound on the depth of the recursion -/
def intoObj : Nat → Key → Option (MObj py.F) → Xml → Except RErr (MObj py.F)
  | 0, _, _, _ => .error .fuel
  | n + 1, k, o, x => match T k with
    | none => .error .fuel
    | some b => intoBody py strict T (intoObj n) (over k) b (o.getD (blankOf py b)) x

end

/-- the attributes a reader method assigns even if there is nothing to read -/
def overs (k : Key) : List Key := (Gen.overTable.find? k).getD []

section
variable (py : Py) (strict : Bool)

/-- a new document, `AutosarTopLevelStructure/__init__.py:99-121` -/
def newDoc : MObj py.F := blankOf py loadBody

/-- `clear()` and `new()`, `AutosarTopLevelStructure/__init__.py:155-175,374-375`, as far as loaded contents are concerned
(`C13_clear_members` and `C13_clear_registries` are about the rest) -/
def clearDoc (d : MObj py.F) : MObj py.F := .mk d.cls (d.fields.map fun e => (e.1, []))

/-- `ARXMLParser.load`, `parser/arxml_parser.py:9412-9424` (`document.reload()` does nothing, `AutosarTopLevelStructure/__init__.py:148-149`) -/
def loadInto (d : MObj py.F) (x : Xml) : Except RErr (MObj py.F) :=
  if x.tag ≠ k!"AUTOSAR" ∧ strict = true then .error (.py .valueError)
  else intoObj py strict readers overs x.depth k!"load" (some d) x

/-- loading files one after another -/
def loadAll (d : MObj py.F) (xs : List Xml) : Except RErr (MObj py.F) := foldE (loadInto py strict) d xs

/-- the member of a document or package with a name, `AutosarTopLevelStructure/__init__.py:177-180`, `ARPackage.py:732-747`,
`Identifiable.py:430-445`: packages first -/
def memberOf {F : Type} (o : MObj F) (n : Str) : Option (MObj F) :=
  match (o.get k!"arPackages").find? (fun v => v.name == n) with
  | some v => some v
  | none => (o.get k!"elements").find? (fun v => v.name == n)

/-- the loop of `find`, `AutosarTopLevelStructure/__init__.py:199-205` (`World.findFrom` is the model with all its errors) -/
def findIn {F : Type} : List Str → MObj F → Option (MObj F)
  | [], o => some o
  | n :: p, o => match memberOf o n with
    | none => none
    | some v => findIn p v

end

end Verif.Model
