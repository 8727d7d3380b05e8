import Verif.Model.Chars
import Verif.Model.Scalar
import Verif.Model.Classes
import Verif.Model.Sort
/-!
# The reader and the writer

`parser/arxml_parser.py` and `writer/arxml_writer.py` consist of about two thousand methods that all have the same
shape.  A reader method is a list of slots (`RSlot`): which attribute of the object is set, from which elements, with
which accessor.  A writer method is a list of emitters (`WB`).  The methods themselves are in the generated modules
`Verif.Gen.Read*` and `Verif.Gen.Write*`, one definition per method, produced from the Python syntax tree by
`tools/codec_*.py`; this module gives both kinds of lists their meaning.

Simplifications:
* An object is its class and the values of its attributes; an attribute is a list (at most one value for an attribute
  that is no list).  The attributes of a part that always exists (for instance `sdgContentsType` of an `Sdg`) are
  attributes of the owner with a dotted name.
* The element collection of an `Identifiable` or a package (`elements`) shows all members created in it, in the
  order of creation; some of them are values of an attribute of their own as well.
* Creating a second element with the short name of an existing one in the same list returns the existing one (C02,
  C03); reading such a file is `outside` the model of the codec (see `Model/Load.lean`).  An empty `SHORT-NAME` is
  `outside` too, and so is a second element where only the last one is kept in the attribute (`internalBehavior`,
  `serviceNeeds`, `diagEventDebounceAlgorithm`; what is not kept is not saved).
* The registries that are filled on the side (`AUTOSAR.addARObject`) are left out here (see `Model/Registry.lean`).
-/
namespace Verif.Model
open Verif

/-- The result of reading something the model does not cover is `outside`. -/
inductive RErr
  | py (e : PyErr)
  | unbound
  | outside
  /-- the recursion bound of the model (never reached, see `C33_fuel`) -/
  | fuel
  deriving DecidableEq, Repr

/-! ## Objects -/

inductive MObj (F : Type)
  | scal (s : Scalar F)
  /-- the fields: name, whether the values are members of the element collection as well, values -/
  | mk (cls : Key) (fields : List ((Key × Bool) × List (MObj F)))

/-- does asking for the attribute `f` show this field; `elements` is the element collection -/
def hits (f : Key) (k : Key × Bool) : Bool := k.1 == f || (k.2 && f == k!"elements")

namespace MObj
variable {F : Type}

def cls : MObj F → Key
  | scal _ => 0
  | mk c _ => c

def fields : MObj F → List ((Key × Bool) × List (MObj F))
  | scal _ => []
  | mk _ fs => fs

/-- all values of an attribute -/
def get (o : MObj F) (f : Key) : List (MObj F) := o.fields.flatMap fun e => if hits f e.1 then e.2 else []

/-- the text of a string or literal value -/
def str : MObj F → Str
  | scal (.str v) => v
  | scal (.lit _ _ v) => v
  | _ => []

/-- `getShortName()` -/
def name (o : MObj F) : Str := match o.get k!"short_name" with
  | v :: _ => v.str
  | [] => []

/-- `isinstance(o, (c1, c2, ...))` -/
def inst (cs : List Key) (o : MObj F) : Bool := cs.any (armodel.sub o.cls)

/-- an attribute, or the members of a collection that are instances of given classes (`[]`: all) -/
def view (o : MObj F) (f : Key) (v : List Key) : List (MObj F) :=
  match v with
  | [] => o.get f
  | _ => (o.get f).filter (inst v)
end MObj

/-- `sorted(objects, key=lambda o: o.getShortName())` -/
def byName {F : Type} (l : List (MObj F)) : List (MObj F) := sortBy (fun o => String.ofList o.name) l

/-! ## Reading -/

/-- what happens with a child that has none of the expected tags -/
inductive GErr
  /-- `notImplemented` -/
  | unsupported
  /-- `raiseError` -/
  | invalid
  /-- `notImplemented`, and in warning mode a local variable is used that was never assigned -/
  | unbound
  deriving DecidableEq, Repr

/-- what is made of a selected element -/
inductive Item
  | prim (k : RKind)
  | attr (name : Key) (k : AKind)
  /-- `getShortName`, `abstract_arxml_parser.py:348-352` -/
  | name
  /-- an object read with the method for the tag of the element -/
  | objs (alts : List (Key × Key))
  | guard (tags : List Key) (e : GErr)
  /-- a child that is used without a test for `None` -/
  | want (tag : Key) (e : PyErr)
  /-- a statement that always raises -/
  | crash (e : PyErr)
  deriving DecidableEq, Repr

/-- what happens if there is no value: nothing, an error in strict mode, an error -/
inductive Req
  | no | strict | always
  deriving DecidableEq, Repr

structure RSlot where
  field : Key
  path : Path
  item : Item
  /-- of several values the last is kept (a setter called in a loop) -/
  last : Bool := false
  /-- the values are members of the element collection -/
  elems : Bool := false
  /-- created by short name -/
  named : Bool := false
  /-- one attribute for all elements created (the last one is kept, all are members of the element collection) -/
  one : Bool := false
  /-- creating one with the name of an existing one does not give the existing one (only `Model/Load.lean`) -/
  fresh : Bool := false
  req : Req := .no
  deriving DecidableEq, Repr

/-- the name of the field a slot fills -/
def RSlot.key (s : RSlot) : Key × Bool := (s.field, s.elems)

structure RBody where
  cls : Key
  slots : List RSlot

/-- `a.b` as a name -/
def dot (a b : Key) : Key := (a * 256 + 46) * 2 ^ (8 * (b.log2 / 8 + 1)) + b

example : dot k!"sdgContentsType" k!"sds" = k!"sdgContentsType.sds" := by decide

/-- calling another reader method on the same object with an element reached by a path -/
def via (p : Path) (l : List RSlot) : List RSlot := l.map fun s => { s with path := p.app s.path }

/-- calling another reader method on a part of the object -/
def part (f : Key) (p : Path) (l : List RSlot) : List RSlot :=
  l.map fun s => { s with path := p.app s.path, field := if s.field = 0 then 0 else dot f s.field }

/-- A reference that is only accepted with a certain `DEST`, and, if `must`, has to be there: ports check this when a com spec is added,
`SWComponentTemplate/Components/__init__.py:312-333,358-380`.  (Here the check is part of reading the reference, in the code it comes after the
com spec was read: a file that violates several rules may raise another exception first.) -/
def aim (f : Key) (dest : Str) (must : Bool) (l : List RSlot) : List RSlot :=
  l.map fun s => if s.field = f ∧ s.item = .prim .ref then { s with item := .prim (.refTo dest), req := if must then .always else s.req } else s

/-- A few methods read the same thing twice (the base class already did); the second time changes nothing. -/
def dropDup : List RSlot → List RSlot
  | [] => []
  | s :: l => s :: (dropDup l).filter (· ≠ s)

section Read
variable {F : Type}

/-- `for x in l: ...` collecting results, stopping at the first exception -/
def mapE {α β ε : Type} (f : α → Except ε β) : List α → Except ε (List β)
  | [] => .ok []
  | x :: l => match f x with
    | .error e => .error e
    | .ok y => match mapE f l with
      | .error e => .error e
      | .ok ys => .ok (y :: ys)

/-- a Python result in the reader -/
def scalars : Except PyErr (Option (Scalar F)) → Except RErr (List (MObj F))
  | .error e => .error (.py e)
  | .ok none => .ok []
  | .ok (some s) => .ok [.scal s]

/-- the reader method for a tag -/
def altOf (alts : List (Key × Key)) (t : Key) : Option Key :=
  match alts with
  | [] => none
  | (t', k) :: r => if t' = t then some k else altOf r t

/-- what is made of one selected element; `strict` is `not options["warning"]`, `rd` reads objects -/
def readItem (py : Py) (strict : Bool) (rd : Key → Xml → Except RErr (MObj py.F)) (i : Item) (y : Xml) :
    Except RErr (List (MObj py.F)) :=
  match i with
  | .prim k => scalars (readKind py k y)
  | .attr n k => match y.attr n with
    | none => .ok []
    | some v => scalars (readAttr py strict k v)
  | .name => if y.text = [] then .error .outside else .ok [.scal (.str y.text)]
  | .objs alts => match altOf alts y.tag with
    | none => .ok []
    | some k => match rd k y with
      | .error e => .error e
      | .ok o => .ok [o]
  | .guard tags g =>
    if tags.contains y.tag then .ok []
    else match g, strict with
      | .unsupported, true => .error (.py .notImplemented)
      | .unsupported, false => .ok []
      | .invalid, true => .error (.py .valueError)
      | .invalid, false => .ok []
      | .unbound, true => .error (.py .notImplemented)
      | .unbound, false => .error .unbound
  | .want t e => if y.kids.any (tagIs t) then .ok [] else .error (.py e)
  | .crash e => .error (.py e)

/-- of several values the last -/
def keepLast {α : Type} (l : List α) : List α := match l.getLast? with
  | none => []
  | some v => [v]

/-- the values a slot gets from an element -/
def readSlot (py : Py) (strict : Bool) (rd : Key → Xml → Except RErr (MObj py.F)) (x : Xml) (s : RSlot) :
    Except RErr (List (MObj py.F)) :=
  match mapE (readItem py strict rd s.item) (select s.path x) with
  | .error e => .error e
  | .ok vs =>
    let vs := if s.last then keepLast vs.flatten else vs.flatten
    match s.req, vs with
    | .always, [] => .error (.py .valueError)
    | .strict, [] => if strict then .error (.py .valueError) else .ok []
    | _, vs => .ok vs

/-- no two elements created by name in one attribute have the same name, and there is only one where only one is kept -/
def namesOk (slots : List RSlot) (o : MObj F) : Bool :=
  slots.all fun s => (!s.named || ((o.get (if s.elems then k!"elements" else s.field)).map MObj.name).Nodup) &&
    (!s.one || Nat.ble (o.get s.field).length 1)

/-- a reader method applied to a new object -/
def readBody (py : Py) (strict : Bool) (rd : Key → Xml → Except RErr (MObj py.F)) (b : RBody) (x : Xml) :
    Except RErr (MObj py.F) :=
  match mapE (readSlot py strict rd x) b.slots with
  | .error e => .error e
  | .ok vs =>
    let o := MObj.mk b.cls ((b.slots.map RSlot.key).zip vs)
    if namesOk b.slots o then .ok o else .error .outside

/-- reading with a bound on the depth of the recursion; `T` finds the methods -/
def readObj (py : Py) (strict : Bool) (T : Key → Option RBody) : Nat → Key → Xml → Except RErr (MObj py.F)
  | 0, _, _ => .error .fuel
  | n + 1, k, x => match T k with
    | none => .error .fuel
    | some b => readBody py strict (readObj py strict T n) b x

end Read

/-! ## Writing -/

/-- a test of the writer on the object being written -/
inductive Cond
  | always
  /-- one of the attributes (or views) is not empty -/
  | any (fs : List (Key × List Key))
  /-- all of the attributes are empty -/
  | none (fs : List (Key × List Key))
  /-- `isinstance` -/
  | cls (cs : List Key)
  | notcls (cs : List Key)
  deriving DecidableEq, Repr

def Cond.holds {F : Type} (o : MObj F) : Cond → Bool
  | always => true
  | any fs => fs.any fun s => !(o.view s.1 s.2).isEmpty
  | none fs => fs.all fun s => (o.view s.1 s.2).isEmpty
  | cls cs => o.inst cs
  | notcls cs => !o.inst cs

/-- a branch of a chain of instance tests: all tests of `pos` (`true`: `type(x) is c`), none of `neg` -/
structure Case where
  pos : List (Bool × List Key)
  neg : List Key
  body : Key
  deriving DecidableEq, Repr

/-- does a class pass the tests -/
def Case.takes (k : Case) (c : Key) : Bool :=
  (k.pos.all fun p => p.2.any fun d => if p.1 then c == d else armodel.sub c d) && !(k.neg.any fun d => armodel.sub c d)

/-- what happens with an object that no branch takes: nothing, `notImplemented`, `_raiseError` -/
inductive Other
  | skip | unsupported | invalid
  deriving DecidableEq, Repr

/-- What is done with the elements for several values: they are added in the order of the values, in the order of the short
names, or each one is added to the one before (`arxml_writer.py:3313`: the variable for the parent is assigned in the loop). -/
inductive Arr
  | plain | sorted | nested
  deriving DecidableEq, Repr

def Arr.sort : Arr → Bool
  | .sorted => true
  | _ => false

/-- A writer method.  The last argument of every constructor is what follows. -/
inductive WB
  | nil
  /-- `element.attrib[name] = ...` if the attribute is set -/
  | attr (name : Key) (k : WAKind) (f : Key) (rest : WB)
  /-- `element.text = ...` if the attribute is set -/
  | text (k : WAKind) (f : Key) (rest : WB)
  /-- one element per value -/
  | prim (tag : Key) (k : WKind) (f : Key) (rest : WB)
  /-- one element per value, in an element of its own -/
  | oprim (outer tag : Key) (k : WKind) (f : Key) (rest : WB)
  /-- `for x in ...` (or `if x is not None`) with a chain of instance tests -/
  | each (f : Key) (v : List Key) (arr : Arr) (cases : List Case) (other : Other) (rest : WB)
  /-- a new child element, if the condition holds -/
  | wrap (c : Cond) (tag : Key) (b : WB) (rest : WB)
  | when (c : Cond) (b : WB) (rest : WB)
  /-- `notImplemented`, `_raiseError` (only in strict mode) or an exception (always) -/
  | fail (e : PyErr) (always : Bool) (rest : WB)

/-- calling another writer method with the same element and the same object, then going on -/
def WB.app : WB → WB → WB
  | nil, q => q
  | attr n k f r, q => attr n k f (r.app q)
  | text k f r, q => text k f (r.app q)
  | prim t k f r, q => prim t k f (r.app q)
  | oprim u t k f r, q => oprim u t k f (r.app q)
  | each f v s c o r, q => each f v s c o (r.app q)
  | wrap c t b r, q => wrap c t b (r.app q)
  | when c b r, q => when c b (r.app q)
  | fail e a r, q => fail e a (r.app q)

/-- what a writer method adds to the element it is given -/
structure Out where
  attrs : List (Key × Str) := []
  text : Str := []
  kids : List Xml := []

/-- one after the other; a later text replaces an earlier one -/
def Out.app (a b : Out) : Out :=
  ⟨a.attrs ++ b.attrs, if b.text = [] then a.text else b.text, a.kids ++ b.kids⟩

/-- what is added to a new child element -/
def Out.node (tag : Key) (o : Out) : Xml := .node tag o.attrs o.text o.kids

/-- what is written one after the other -/
def outs : List Out → Out
  | [] => {}
  | a :: r => a.app (outs r)

/-- adding to the element that was added last -/
def Out.into (a b : Out) : Out := match a.kids with
  | [.node t as s ks] => { a with kids := [.node t (as ++ b.attrs) (if b.text = [] then s else b.text) (ks ++ b.kids)] }
  | _ => a.app b

/-- what is written one in the other -/
def nest : List Out → Out
  | [] => {}
  | a :: r => a.into (nest r)

def Arr.outs : Arr → List Out → Out
  | .nested => nest
  | _ => Model.outs

section Write
variable (py : Py) (repr : py.F → Str) (strict : Bool) (wr : Key → MObj py.F → Except PyErr Out)

/-- an attribute for the first value, if there is one -/
def writeAttrOf (n : Key) (k : WAKind) : List (MObj py.F) → Except PyErr Out
  | .scal s :: _ => match writeAttr py strict k s with
    | .error e => .error e
    | .ok none => .ok {}
    | .ok (some v) => .ok { attrs := [(n, v)] }
  | .mk _ _ :: _ => .error .attributeError
  | [] => .ok {}

def writeTextOf (k : WAKind) : List (MObj py.F) → Except PyErr Out
  | .scal s :: _ => match writeAttr py strict k s with
    | .error e => .error e
    | .ok none => .ok {}
    | .ok (some v) => .ok { text := v }
  | .mk _ _ :: _ => .error .attributeError
  | [] => .ok {}

def writePrim (t : Key) (k : WKind) : MObj py.F → Except PyErr Xml
  | .scal s => writeKind py repr k t s
  | .mk _ _ => .error .attributeError

/-- an object through the chain of instance tests -/
def writeCase (cases : List Case) (other : Other) (o : MObj py.F) : Except PyErr Out :=
  match cases.find? (fun k => k.takes o.cls) with
  | some k => wr k.body o
  | none => match other, strict with
    | .unsupported, true => .error .notImplemented
    | .invalid, true => .error .valueError
    | _, _ => .ok {}

/-- in this order, stopping at the first exception -/
def seqE (a : Except PyErr Out) (b : Except PyErr Out) : Except PyErr Out :=
  match a with
  | .error e => .error e
  | .ok x => match b with
    | .error e => .error e
    | .ok y => .ok (x.app y)

/-- the meaning of a writer method -/
def writeB (o : MObj py.F) : WB → Except PyErr Out
  | .nil => .ok {}
  | .attr n k f r => seqE (writeAttrOf py strict n k (o.get f)) (writeB o r)
  | .text k f r => seqE (writeTextOf py strict k (o.get f)) (writeB o r)
  | .prim t k f r =>
    seqE ((mapE (writePrim py repr t k) (o.get f)).map fun ys => { kids := ys }) (writeB o r)
  | .oprim u t k f r =>
    seqE ((mapE (writePrim py repr t k) (o.get f)).map fun ys => { kids := ys.map fun y => .node u [] [] [y] })
      (writeB o r)
  | .each f v a cases other r =>
    let items := if a.sort then byName (o.view f v) else o.view f v
    seqE ((mapE (writeCase py strict wr cases other) items).map a.outs) (writeB o r)
  | .wrap c t b r =>
    seqE (if c.holds o then (writeB o b).map fun out => { kids := [out.node t] } else .ok {}) (writeB o r)
  | .when c b r => seqE (if c.holds o then writeB o b else .ok {}) (writeB o r)
  | .fail e a r => seqE (if a || strict then .error e else .ok {}) (writeB o r)

/-- writing with a bound on the depth of the recursion -/
def writeObj (T : Key → Option WB) : Nat → Key → MObj py.F → Except PyErr Out
  | 0, _, _ => .error .recursionError
  | n + 1, k, o => match T k with
    | none => .error .recursionError
    | some b => writeB py repr strict (writeObj T n) o b

end Write

end Verif.Model
