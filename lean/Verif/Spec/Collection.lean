import Verif.Model.Collection
/-!
# Specification of element collections

The reader of the properties needs only this: a container *is* the list of the
elements it enumerates.  There is no name index here.
-/
namespace Verif.Spec
open Verif.Model

/-- first member with this name that is an instance of this class (any class for `none`) -/
def lookup (H : Hier) (l : List Elem) (n : String) (t : Option Nat) : Option Elem :=
  l.find? fun a => a.name == n && (match t with | none => true | some t => H.sub a.cls t)

/-- adding an element: appended, unless a member of that name already is an
instance of the element's class -/
def insert (H : Hier) (l : List Elem) (e : Elem) : List Elem :=
  if (lookup H l e.name (some e.cls)).isSome then l else l ++ [e]

/-- removing: the first member matching name and type leaves, the others keep their order -/
def remove (H : Hier) (l : List Elem) (n : String) (t : Option Nat) : List Elem :=
  match lookup H l n t with
  | none => l
  | some a => l.erase a

/-- the effect of an API call on the enumerated members -/
def apply (H : Hier) (l : List Elem) : Coll.Op → List Elem
  | .add e => insert H l e
  | .create n t f => insert H l ⟨f, n, t⟩
  | .remove n t => remove H l n t

/-- members after a history -/
def members (H : Hier) (ops : List Coll.Op) : List Elem := ops.foldl (apply H) []

end Verif.Spec
