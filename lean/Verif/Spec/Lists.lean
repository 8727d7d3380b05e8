import Verif.Model.Accessors
import Verif.Model.Document
/-!
# Specification for C89: attributes that hold lists
-/
namespace Verif.Spec
open Verif Verif.Model

/-- new objects of the class have an empty list in the attribute -/
def HoldsList (c f : Key) : Prop := inits c f = some .nil

/-- new objects of the class have `None` in the attribute -/
def HoldsOne (c f : Key) : Prop := inits c f = some .none

/-- from `x` the path leads to all children with the tag `t` of some elements (those on the path `p`), or to one element inside of each of these children:
however many children there are, none is left out -/
def Repeats (w : Path) (x : Xml) (p : Path) (t : Key) (q : Path) : Prop :=
  (∀ y, (select q y).length ≤ 1) ∧ select w x = (select p x).flatMap fun z => (z.kids.filter (tagIs t)).flatMap (select q)

/-- methods of the reader and attributes they fill with one value, although the attribute holds a list -/
def cutLists : List (Key × Key) := [(k!"readISignalTransformationISignalProps_EndToEndTransformationISignalProps", k!"dataIds")]

end Verif.Spec
