import Verif.Model.Key
/-!
# Enumerations

`AREnum` (`GenericStructure/GeneralTemplateClasses/PrimitiveTypes.py:298-349`) and the classes derived from it.  A value is a text; a value of
another type, which `ARLiteral.value` turns into a text (`:276-280`), is left out.
-/
namespace Verif.Model
open Verif

/-- A class derived from `AREnum`: its constants, the values its constructor passes to that of `AREnum` (`none`: it has no constructor without
arguments), and its line. -/
structure EnumRow where
  cls : Key
  consts : List (Key × String)
  allowed : Option (List String)
  line : Nat
deriving DecidableEq

/-- An object: `enumValues` and `_value`. -/
structure EnumObj where
  allowed : List String
  value : Option String
deriving DecidableEq

namespace EnumObj

/-- the constructor, `:310-313` with `ARType.__init__`, `:26-29`; without its argument it raises `TypeError` -/
def new (r : EnumRow) : Except String EnumObj :=
  match r.allowed with
  | some l => .ok ⟨l, none⟩
  | none => .error "TypeError"

/-- `getEnumValues`, `:315-322` -/
def getEnumValues (o : EnumObj) : List String := o.allowed

/-- `validateEnumValue`, `:337-349` -/
def validate (o : EnumObj) (v : String) : Bool := if o.allowed.contains v then true else false

/-- what is done with the object -/
inductive Op
  /-- `setValue`, `:49-63` with `:276-280` -/
  | setValue (v : Option String)
  /-- `setEnumValues`, `:324-335` -/
  | setEnumValues (l : List String)

def step (o : EnumObj) : Op → EnumObj
  | .setValue none => o
  | .setValue (some v) => { o with value := some v }
  | .setEnumValues l => { o with allowed := l }

def run (o : EnumObj) (ops : List Op) : EnumObj := ops.foldl step o

/-- `getValue`, `:40-47` with `:269-274` -/
def getValue (o : EnumObj) : String := o.value.getD ""

end EnumObj
end Verif.Model
