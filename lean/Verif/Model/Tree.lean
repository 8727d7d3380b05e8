import Verif.Model.Create
import Verif.Model.Sort
/-!
# Documents, packages, parents and path lookup

An object store: every object has an identity, a kind, a short name, a class, the identity of its
parent, its member collection and (documents and packages) its dictionary of sub-packages.

Modelled code: `AutosarTopLevelStructure/__init__.py:152-238,354-395` (`full_name`, `clear` as far as
members are concerned, `getElement`, `getARPackages`, `createARPackage`, `find`, `getDestType`, the
singleton), `ARPackage.py:488-559,705-747`, `Identifiable.py:36-92` (`Referrable`).

Simplifications:
* short names do not change after construction (the `shortName` setter is modelled in `Model/Rename`);
* an object is only added to the collection of the object that was passed as its parent (all create
  methods do `addElement(T(self, short_name))`).
-/
namespace Verif.Model

/-- What an object can contain. -/
inductive Kind
  /-- `AbstractAUTOSAR`: packages and members -/
  | doc
  /-- `ARPackage`: packages and members -/
  | pkg
  /-- `Identifiable`: members -/
  | ident
  /-- `Referrable` without a collection (e.g. `BswVariableAccess`, `HwPin`): has no `getElement` -/
  | plain
  deriving DecidableEq, Repr

structure Obj where
  kind : Kind
  name : String
  cls : Nat
  /-- identity of the parent; a document has none (the field is then unused) -/
  parent : Nat
  own : Owner
  /-- `arPackages`, a dictionary in insertion order -/
  pkgs : List (String × Nat)

structure World where
  /-- number of objects constructed so far -/
  next : Nat
  get : Nat → Option Obj

namespace World

/-- the singleton returned by `AUTOSAR.getInstance()` (`AutosarTopLevelStructure/__init__.py:369-372`) -/
abbrev singleton : Nat := 0

/-- `__init__.py:99-121,386-395`: a new document -/
def freshDoc : Obj := ⟨.doc, "", 0, 0, Owner.empty, []⟩

/-- The process after the singleton was constructed. -/
def init : World := ⟨1, fun i => if i = 0 then some freshDoc else none⟩

def upd (w : World) (i : Nat) (o : Obj) : World := { w with get := fun j => if j = i then some o else w.get j }

/-- construct a new object -/
def alloc (w : World) (o : Obj) : World := ⟨w.next + 1, fun j => if j = w.next then some o else w.get j⟩

/-- `full_name`: `__init__.py:151-153` (document), `ARPackage.py:545-550`, `Identifiable.py:75-80`.
A parent is constructed before its children, which makes the recursion end. -/
def fullName (w : World) (i : Nat) : String :=
  match w.get i with
  | none => ""
  | some o =>
    match o.kind with
    | .doc => ""
    | _ => if _h : o.parent < i then fullName w o.parent ++ "/" ++ o.name else "/" ++ o.name
termination_by i

/-- `getElement(short_name)` without type: `__init__.py:177-180`, `ARPackage.py:732-747`,
`Identifiable.py:307-325,447-465`; a `Referrable` that is not `Identifiable` has no such method. -/
def getElement (H : Hier) (w : World) (i : Nat) (n : String) : Except PyErr (Option Nat) :=
  match w.get i with
  | none => .error .attributeError
  | some o =>
    match o.kind with
    | .plain => .error .attributeError
    | .ident => (o.own.coll.getElement H n none).map (·.map (·.id))
    | _ =>
      match o.pkgs.lookup n with
      | some p => .ok (some p)
      | none => (o.own.coll.getElement H n none).map (·.map (·.id))

/-- `str.split("/")` -/
def splitSlash : List Char → List (List Char)
  | [] => [[]]
  | c :: s =>
    if c = '/' then [] :: splitSlash s
    else match splitSlash s with
      | [] => [[c]]
      | x :: r => (c :: x) :: r

/-- the loop of `find`, `__init__.py:199-205` -/
def walk (H : Hier) (w : World) (i : Nat) : List (List Char) → Except PyErr (Option Nat)
  | [] => .ok (some i)
  | s :: r =>
    if s = [] then walk H w i r
    else match w.getElement H i (String.ofList s) with
      | .error e => .error e
      | .ok none => .ok none
      | .ok (some j) => walk H w j r

/-- `find(path)` with the search starting at object `i`, `__init__.py:198-205` -/
def findFrom (H : Hier) (w : World) (i : Nat) (path : String) : Except PyErr (Option Nat) :=
  walk H w i (splitSlash path.toList)

/-- `find(path)` for a text path called on document `self`, `__init__.py:191-214`; the receiver is not
used, the search starts at the singleton. -/
def find (H : Hier) (w : World) (_self : Nat) (path : String) : Except PyErr (Option Nat) :=
  w.findFrom H singleton path

/-- `getDestType`, `__init__.py:216-238`; `table` is the `isinstance` chain -/
def destOf (H : Hier) (cls : Nat) : List (Nat × String) → Except PyErr String
  | [] => .error .notImplemented
  | (c, s) :: r => if H.sub cls c then .ok s else destOf H cls r

/-- `find(ref)` for a `RefType` with value and DEST, `__init__.py:191-214` -/
def findRef (H : Hier) (table : List (Nat × String)) (w : World) (self : Nat) (value : String) (dest : Option String) :
    Except PyErr (Option Nat) :=
  match w.find H self value with
  | .error e => .error e
  | .ok none => .ok none
  | .ok (some i) =>
    match dest with
    | none => .ok (some i)
    | some d =>
      if d = "" then .ok (some i)
      else match w.get i with
        | none => .error .attributeError
        | some o => match destOf H o.cls table with
          | .error e => .error e
          | .ok b => if b ≠ d then .error .valueError else .ok (some i)

/-- `getARPackages`, `__init__.py:182-183`, `ARPackage.py:705-713`: sorted by short name.
The dictionary key is the short name. -/
def getARPackages (w : World) (i : Nat) : List Nat :=
  match w.get i with
  | none => []
  | some o => (sortBy (·.1) o.pkgs).map (·.2)

/-- `createARPackage(n)`, `__init__.py:185-189`, `ARPackage.py:716-730`: new state and returned object -/
def createARPackage (w : World) (recv : Nat) (pkgCls : Nat) (n : String) : World × Option Nat :=
  match w.get recv with
  | none => (w, none)
  | some o =>
    match o.kind with
    | .ident | .plain => (w, none)
    | _ =>
      match o.pkgs.lookup n with
      | some p => (w, some p)
      | none =>
        let p := w.next
        ((w.alloc ⟨.pkg, n, pkgCls, recv, Owner.empty, []⟩).upd recv { o with pkgs := o.pkgs ++ [(n, p)] }, some p)

/-- One API call. -/
inductive Op
  /-- `AUTOSARDoc()` -/
  | newDoc
  | createARPackage (recv : Nat) (n : String)
  /-- a create method of the receiver; `k` is the kind of the constructed object -/
  | create (recv : Nat) (r : CreateRow) (n : String) (k : Kind)
  /-- `removeElement` -/
  | remove (recv : Nat) (n : String) (t : Option Nat)
  /-- `clear()` of a document -/
  | clear (d : Nat)

def step (H : Hier) (pkgCls : Nat) (w : World) : Op → World
  | .newDoc => w.alloc freshDoc
  | .createARPackage recv n => (w.createARPackage recv pkgCls n).1
  | .create recv r n k =>
    match w.get recv with
    | none => w
    | some o =>
      if (k = .ident ∨ k = .plain) ∧ o.kind ≠ .plain then
        if o.own.construct H r n then
          (w.alloc ⟨k, n, r.target, recv, Owner.empty, []⟩).upd recv { o with own := o.own.create H r n w.next }
        else w
      else w
  | .remove recv n t =>
    match w.get recv with
    | none => w
    | some o => match o.own.coll.removeElement H n t with
      | .ok c => w.upd recv { o with own := { o.own with coll := c } }
      | .error _ => w
  | .clear d =>
    match w.get d with
    | none => w
    | some o => if o.kind = .doc then w.upd d { o with own := Owner.empty, pkgs := [] } else w

/-- The process after a history of API calls. -/
def run (H : Hier) (pkgCls : Nat) (ops : List Op) : World := ops.foldl (step H pkgCls) init

end World
end Verif.Model
