import Verif.Model.Codec
/-!
# Adding com specs to ports

`models/M2/AUTOSARTemplates/SWComponentTemplate/Components/__init__.py`
-/
namespace Verif.Model
open Verif
variable {F : Type}

/-- the kinds of ports: `PPortPrototype` (392-410), `RPortPrototype` (413-438), `PRPortPrototype` (440-475) -/
inductive PortKind
  | p | r | pr
  deriving DecidableEq, Repr

/-- the two lists of com specs; a `PPortPrototype` only has the first one, an `RPortPrototype` only the second one -/
structure Port (F : Type) where
  kind : PortKind
  provided : List (MObj F) := []
  required : List (MObj F) := []

/-- `ref.dest` of a reference (the attribute is `None` for a reference that has none) -/
def refDest : MObj F → Option Str
  | .scal (.ref _ d _) => d
  | _ => none

/-- `is not None and ….dest != dest` for an attribute -/
def wrongDest (o : MObj F) (f : Key) (dest : Str) : Bool := (o.get f).any fun v => refDest v != some dest

/-- `AbstractProvidedPortPrototype._validateRPortComSpec`, lines 312-330 -/
def checkProvided (s : MObj F) : Except PyErr Unit :=
  if s.inst [k!"NonqueuedSenderComSpec"] then
    if (s.get k!"dataElementRef").isEmpty then .error .valueError
    else if wrongDest s k!"dataElementRef" t!"VARIABLE-DATA-PROTOTYPE" then .error .valueError
    else .ok ()
  else if s.inst [k!"ServerComSpec"] then .ok ()
  else if s.inst [k!"QueuedSenderComSpec"] then .ok ()
  else if s.inst [k!"ModeSwitchSenderComSpec"] then .ok ()
  else if s.inst [k!"NvProvideComSpec"] then .ok ()
  else if s.inst [k!"ParameterProvideComSpec"] then .ok ()
  else .error .valueError

/-- `AbstractRequiredPortPrototype._validateRPortComSpec`, lines 358-376 -/
def checkRequired (s : MObj F) : Except PyErr Unit :=
  if s.inst [k!"ClientComSpec"] then
    if wrongDest s k!"operationRef" t!"CLIENT-SERVER-OPERATION" then .error .valueError else .ok ()
  else if s.inst [k!"NonqueuedReceiverComSpec"] then
    if wrongDest s k!"dataElementRef" t!"VARIABLE-DATA-PROTOTYPE" then .error .valueError else .ok ()
  else if s.inst [k!"QueuedReceiverComSpec"] then .ok ()
  else if s.inst [k!"ModeSwitchReceiverComSpec"] then .ok ()
  else if s.inst [k!"ParameterRequireComSpec"] then
    if wrongDest s k!"parameterRef" t!"PARAMETER-DATA-PROTOTYPE" then .error .valueError else .ok ()
  else .error .valueError

/-- `addProvidedComSpec`, lines 332-334 and, without a check, 460-462; a port without the method raises AttributeError -/
def Port.addProvided (p : Port F) (s : MObj F) : Except PyErr (Port F) := match p.kind with
  | .r => .error .attributeError
  | .pr => .ok { p with provided := p.provided ++ [s] }
  | .p => match checkProvided s with
    | .error e => .error e
    | .ok () => .ok { p with provided := p.provided ++ [s] }

/-- `addRequiredComSpec`, lines 378-380 and, without a check, 467-469 -/
def Port.addRequired (p : Port F) (s : MObj F) : Except PyErr (Port F) := match p.kind with
  | .p => .error .attributeError
  | .pr => .ok { p with required := p.required ++ [s] }
  | .r => match checkRequired s with
    | .error e => .error e
    | .ok () => .ok { p with required := p.required ++ [s] }

/-- calls of the two methods; `false` in the first component is `addRequiredComSpec` -/
abbrev PortCall (F : Type) := Bool × MObj F

def Port.call (p : Port F) (c : PortCall F) : Except PyErr (Port F) := if c.1 then p.addProvided c.2 else p.addRequired c.2

/-- calls one after another; an exception leaves the port as it is (`try` … `except` around each call) -/
def Port.run (p : Port F) (cs : List (PortCall F)) : Port F := cs.foldl (fun p c => match p.call c with
  | .ok q => q
  | .error _ => p) p

end Verif.Model
