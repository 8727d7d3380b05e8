import Verif.Spec.ListTool
import Verif.Spec.Document
/-!
# Specification: UUIDs in files

What C60 talks about.
-/
namespace Verif.Spec
open Verif Verif.Model

/-- the element at a position: the numbers of the children on the way -/
def elemAt : List Nat → Xml → Option Xml
  | [], x => some x
  | i :: p, x => x.kids[i]?.bind (elemAt p)

/-- a place in some files: the number of the file and the position -/
abbrev Place := Nat × List Nat

/-- at this place there is an element with this UUID -/
def Carries (xs : List Xml) (u : Str) (a : Place) : Prop :=
  ∃ x y, xs[a.1]? = some x ∧ elemAt a.2 x = some y ∧ y.attr k!"UUID" = some u

/-- the package (a child of `AR-PACKAGES`) at a position in an element -/
def PkgStep (x : Xml) (i j : Nat) (y : Xml) : Prop :=
  ∃ g, x.kids[i]? = some g ∧ g.tag = k!"AR-PACKAGES" ∧ g.kids[j]? = some y ∧ y.tag = k!"AR-PACKAGE"

/-- the element (a child of `ELEMENTS`) at a position in a package; its tag is one the reader knows.  (One kind is left out, see
`C60_unread_broken`.) -/
def ElemStep (x : Xml) (i j : Nat) (y : Xml) : Prop :=
  ∃ g, x.kids[i]? = some g ∧ g.tag = k!"ELEMENTS" ∧ g.kids[j]? = some y ∧ y.tag ∈ packageTags.map Prod.fst ∧
    y.tag ≠ k!"ECUC-DESTINATION-URI-DEF-SET"

/-- `y` is a package or an element of a package in `x`: position, names that lead to it -/
inductive Held : Xml → List Nat → List Str → Xml → Prop
  | package {x y i j} : PkgStep x i j y → Held x [i, j] [nameIn y] y
  | element {x y z i j i' j'} : PkgStep x i j y → ElemStep y i' j' z → Held x [i, j, i', j'] [nameIn y, nameIn z] z
  | inside {x y z i j p ns} : PkgStep x i j y → Held y p ns z → Held x (i :: j :: p) (nameIn y :: ns) z

/-- at this place there is a package or an element of a package with this UUID -/
def HeldAt (xs : List Xml) (u : Str) (a : Place) (ns : List Str) : Prop :=
  ∃ x y, xs[a.1]? = some x ∧ Held x a.2 ns y ∧ y.attr k!"UUID" = some u

/-- the elements whose attributes the reader reads twice -/
def readTwice : List Key := [k!"APPLICATION-VALUE-SPECIFICATION", k!"NUMERICAL-VALUE-SPECIFICATION", k!"TEXT-VALUE-SPECIFICATION",
  k!"NONQUEUED-RECEIVER-COM-SPEC", k!"QUEUED-RECEIVER-COM-SPEC"]

/-- the attribute `uuid` of an object, or of a part of it -/
def isUuidField (f : Key) : Bool := f == k!"uuid" || f % 256 ^ 5 == k!".uuid"

/-- the value of an attribute is this text -/
def isText {F : Type} (u : Str) : List (MObj F) → Bool
  | [.scal (.str s)] => s == u
  | _ => false

mutual
/-- how many objects with this UUID there are in an object (itself included) -/
def uuidsOf {F : Type} (u : Str) : MObj F → Nat
  | .scal _ => 0
  | .mk _ fs => uuidsOfF u fs
def uuidsOfF {F : Type} (u : Str) : List ((Key × Bool) × List (MObj F)) → Nat
  | [] => 0
  | (k, vs) :: fs => (if isUuidField k.1 && isText u vs then 1 else 0) + uuidsOfL u vs + uuidsOfF u fs
def uuidsOfL {F : Type} (u : Str) : List (MObj F) → Nat
  | [] => 0
  | v :: vs => uuidsOf u v + uuidsOfL u vs
end

end Verif.Spec
