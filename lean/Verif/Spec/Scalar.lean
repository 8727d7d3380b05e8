import Verif.Model.Codec
/-!
# Specification: scalar accessors

What C27–C29 talk about, apart from the definitions of the reader and the writer.
-/
namespace Verif.Spec
open Verif Verif.Model

/-- the element that contains `y` among other children, none of which before it has the same tag -/
structure InContext (y : Xml) (p : Xml) : Prop where
  split : ∃ pre post, p.kids = pre ++ y :: post ∧ ∀ z ∈ pre, z.tag ≠ y.tag

/-- the text of a scalar and the attributes stored with it -/
def textOf {F : Type} (repr : F → Str) : Scalar F → Str
  | .lit _ _ v => v
  | .num _ _ _ _ o => o.text' repr
  | .bool _ _ o => PBool.text' o
  | .limit _ _ _ v => v
  | .ref _ _ v => v
  | .str v => v

/-- the tags a path asks for at the element it starts from (`0`: all) -/
def heads : Path → List Key
  | .nil => []
  | .all t _ => [t]
  | .first ts r => match ts with
    | [] => heads r
    | t :: _ => [t]
  | .pick ts _ => ts
  | .need p r => heads p ++ heads r
  | .lack p r => heads p ++ heads r
  | .alt p q => heads p ++ heads q

/-- the path leaves the element it starts from -/
def moves : Path → Bool
  | .nil => false
  | .all _ _ => true
  | .first ts r => match ts with
    | [] => moves r
    | _ :: _ => true
  | .pick _ _ => true
  | .need _ r => moves r
  | .lack _ r => moves r
  | .alt p q => moves p && moves q

/-- items that look at the children of the selected element -/
def deep : Item → Bool
  | .objs _ => true
  | .want _ _ => true
  | _ => false

/-- a child the reader method does not look at -/
def ForeignTo (b : RBody) (z : Xml) : Prop :=
  ∀ s ∈ b.slots, ∀ t ∈ heads s.path, tagIs t z = false

end Verif.Spec
