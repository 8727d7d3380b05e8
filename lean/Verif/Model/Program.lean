import Verif.Model.Load
/-!
# Programs that build a document

A program that uses the library calls methods of the model classes: create methods (`createARPackage`, `createUnit`, ...), which add an object with
a name unless there is one, set methods, and add methods.  Here they act on the documents of `Model/Codec.lean`.

The attributes are those the reader methods fill, so an object of class `c` has the fields of a reader method for `c`.  That the classes have
methods for these attributes is `C85_methods`.

Simplifications: attributes of parts (`a.b`, for instance the labels of a `SwDataDefProps`) are set directly; an add method is only called with an
object that is not in the list yet (the test `value not in self.f`, where there is one, compares objects by identity); passing `None` to a set
method that does not ignore it is `unset`; elements are removed only from packages, where they are members of the element collection
and of no other list.
-/
namespace Verif.Model
open Verif

section
variable {F : Type}

/-- changing the values of a field (`self.f = ...`, `self.f.append(...)`) -/
def changeAt (a : Key × Bool) (g : List (MObj F) → List (MObj F)) : List ((Key × Bool) × List (MObj F)) → List ((Key × Bool) × List (MObj F))
  | [] => []
  | (k, vs) :: l => if k = a then (k, g vs) :: l else (k, vs) :: changeAt a g l

/-- changing the values of an attribute of an object -/
def MObj.change (a : Key × Bool) (g : List (MObj F) → List (MObj F)) : MObj F → MObj F
  | .scal s => .scal s
  | .mk c fs => .mk c (changeAt a g fs)

/-- the values of a field -/
def valsAt (a : Key × Bool) : List ((Key × Bool) × List (MObj F)) → List (MObj F)
  | [] => []
  | (k, vs) :: l => if k = a then vs else valsAt a l

/-- the values of an attribute of an object -/
def MObj.vals (o : MObj F) (a : Key × Bool) : List (MObj F) := valsAt a o.fields

/-- the attribute or collection a create method searches: `self.elements` for `Identifiable` elements
(`GeneralTemplateClasses/Identifiable.py:327-340`), otherwise the attribute -/
def collection (a : Key × Bool) : Key := if a.2 then k!"elements" else a.1

/-- A call of a method of an object. -/
inductive Deed (F : Type)
  /-- `setX(v)`, for instance `MSR/AsamHdo/Units.py:219-225` -/
  | set (a : Key × Bool) (v : MObj F)
  /-- `addX(v)`, for instance `GeneralTemplateClasses/Identifiable.py:91-104` -/
  | add (a : Key × Bool) (v : MObj F)
  /-- `createX(n)`, for instance `GeneralTemplateClasses/ARPackage.py:1005-1009`; the class is the one the reader method `k` fills -/
  | create (a : Key × Bool) (k : Key) (n : Str)
  /-- `setX(None)` where it is not ignored, and `removeAdminData()`, `GeneralTemplateClasses/Identifiable.py:508-512` -/
  | unset (a : Key × Bool)
  /-- `removeElement(n)`, `GeneralTemplateClasses/Identifiable.py:263-279` -/
  | remove (a : Key × Bool) (n : Str)

/-- taking the first object with a name out of a list -/
def dropNamed (n : Str) : List (MObj F) → List (MObj F)
  | [] => []
  | v :: l => if v.name == n then l else v :: dropNamed n l

end

section
variable (py : Py) (T : Key → Option RBody)

/-- `C(self, short_name)`: the constructor sets the name, `GeneralTemplateClasses/Identifiable.py:36-43` -/
def namedObj (b : RBody) (n : Str) : MObj py.F := (blankOf py b).change (k!"short_name", false) fun _ => [.scal (.str n)]

/-- what a call does.  Create methods (`GeneralTemplateClasses/ARPackage.py:1005-1009`, `if not self.IsElementExists(short_name, C): ... self.addElement(C(self, short_name))`)
add an object unless there is one of that class and name. -/
def Deed.run (o : MObj py.F) : Deed py.F → MObj py.F
  | .set a v => o.change a fun _ => [v]
  | .add a v => o.change a fun vs => vs ++ [v]
  | .create a k n => match T k with
    | none => o
    | some b => if (o.get (collection a)).any (isIt b.cls n) then o else o.change a fun vs => vs ++ [namedObj py b n]
  | .unset a => o.change a fun _ => []
  | .remove a n => o.change a (dropNamed n)

end
end Verif.Model
