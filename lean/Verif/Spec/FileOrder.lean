import Mathlib.Data.List.Forall2
import Verif.Spec.Tags
/-!
# Specification for C88: the order of the elements of a file
-/
namespace Verif.Spec
open Verif Verif.Model

mutual
/-- an element and all elements below it, in the order in which they begin in the file -/
def inOrder : Xml → List Xml
  | .node t as s kids => .node t as s kids :: allInOrder kids
def allInOrder : List Xml → List Xml
  | [] => []
  | x :: l => inOrder x ++ allInOrder l
end

/-- a value is what is made of an element, or of one of its XML attributes -/
inductive Shows (py : Py) : MObj py.F → Xml → Prop
  | mirrors {w : MObj py.F} {y : Xml} (h : Mirrors py wrongNames w y) : Shows py w y
  | attr {s : Scalar py.F} {y : Xml} {n : Key} {v : Str} {strict : Bool} {k : AKind} (ha : y.attr n = some v) (hr : readAttr py strict k v = .ok (some s)) :
      Shows py (.scal s) y

/-- the values of each attribute are made of different elements below `x`, in the order of these elements in the file -/
def Ordered (py : Py) (o : MObj py.F) (x : Xml) : Prop :=
  ∀ e ∈ o.fields, ∃ ys, ys.Sublist (inOrder x) ∧ List.Forall₂ (Shows py) e.2 ys

end Verif.Spec
