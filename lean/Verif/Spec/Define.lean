import Verif.Spec.Load
/-!
# Specification: the definitions of an element

What C82 talks about.  The same package, or the same element of a package, may be written several times: in several files or in
one.  Its *definitions* are the XML elements it is written as; `definitions k x p` are those inside of `x` for the path `p`, in the
order of the file.  Only the tables that say which children a reader method looks at (and with which method they are read) are used
here, nothing of how objects are made or found.
-/
namespace Verif.Spec
open Verif Verif.Model

/-- the attribute in which packages, and that in which elements are kept -/
def Role.attr : Role → Key
  | .package => k!"arPackages"
  | .element => k!"elements"

/-- the children, with the methods they are read with, that define the package (the element) `n` of what is read from `x` -/
def defsIn (k : Key) (x : Xml) (g : Role) (n : Str) : List (Key × Xml) := match readers k with
  | none => []
  | some b => b.slots.flatMap fun s =>
    if hits g.attr s.key then match s.item with
      | .objs alts => (select s.path x).filterMap fun y => if elemName y = n then (altOf alts y.tag).map fun k => (k, y) else none
      | _ => []
    else []

/-- the definitions of what a path leads to -/
def definitions (k : Key) (x : Xml) : List (Role × Str) → List (Key × Xml)
  | [] => [(k, x)]
  | (g, n) :: p => (defsIn k x g n).flatMap fun d => definitions d.1 d.2 p

/-- the file defines an object of a class at a path -/
def Defines (x : Xml) (p : List (Role × Str)) (c : Key) : Prop := ∃ d ∈ definitions k!"load" x p, ∃ b, readers d.1 = some b ∧ b.cls = c

/-- what a path leads to -/
def objectAt {F : Type} (o : MObj F) : List (Role × Str) → Option (MObj F)
  | [] => some o
  | (g, n) :: p => ((held o g).find? fun v => v.name == n).bind fun v => objectAt v p

/-- one definition is read: into the object, if there is one already, or into a new one -/
def readIn (py : Py) (strict : Bool) (o : Option (MObj py.F)) (d : Key × Xml) : Except RErr (Option (MObj py.F)) :=
  (intoObj py strict readers overs d.2.depth d.1 o d.2).map some

/-- one definition after the other is read -/
def readAll (py : Py) (strict : Bool) (o : Option (MObj py.F)) (ds : List (Key × Xml)) : Except RErr (Option (MObj py.F)) :=
  foldE (readIn py strict) o ds

/-! ## packages and their elements, in terms of the file alone -/

/-- the `AR-PACKAGE` elements of a package, or of a file, with a short name -/
def packagesNamed (n : Str) (x : Xml) : List Xml :=
  ((x.kids.filter fun y => y.tag == k!"AR-PACKAGES").flatMap fun y => y.kids.filter fun z => z.tag == k!"AR-PACKAGE").filter fun z => elemName z == n

/-- the `AR-PACKAGE` elements at a path -/
def packagesAt (x : Xml) : List Str → List Xml
  | [] => [x]
  | n :: ns => (packagesNamed n x).flatMap fun y => packagesAt y ns

/-- the elements of a package with a short name -/
def elementsNamed (n : Str) (x : Xml) : List Xml :=
  ((x.kids.filter fun y => y.tag == k!"ELEMENTS").flatMap Xml.kids).filter fun z => elemName z == n

/-- the methods for the elements of packages, `parser/arxml_parser.py:9023-9318` -/
def elementReaders : List (Key × Key) := ((readers k!"readARPackages_ARPackage").map RBody.slots).getD [] |>.flatMap fun s =>
  match s.field == k!"elements", s.item with
  | true, .objs alts => alts
  | _, _ => []

end Verif.Spec
