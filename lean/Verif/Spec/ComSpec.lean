import Verif.Model.Document
import Verif.Model.Ports
/-!
# Specification for C62: com specs of ports

Independent of how and when the code checks them.
-/
namespace Verif.Spec
open Verif Verif.Model

/-- an object of a document, at any depth -/
inductive Within {F : Type} : MObj F → MObj F → Prop
  | here (o : MObj F) : Within o o
  | inside {o v w : MObj F} (e : (Key × Bool) × List (MObj F)) : e ∈ o.fields → v ∈ e.2 → Within v w → Within o w

/-- everything in the attribute is a reference to a thing of that kind -/
def Targets {F : Type} (o : MObj F) (f : Key) (dest : Str) : Prop := ∀ v ∈ o.get f, ∃ b t, v = .scal (.ref b (some dest) t)

/-- the com specs a port that provides an interface may have; the one of a sender without a queue has to say which data element it is about -/
def ProvidedOk {F : Type} (s : MObj F) : Prop :=
  (s.cls = k!"NonqueuedSenderComSpec" ∧ s.get k!"dataElementRef" ≠ [] ∧ Targets s k!"dataElementRef" t!"VARIABLE-DATA-PROTOTYPE") ∨
  s.cls ∈ [k!"ServerComSpec", k!"QueuedSenderComSpec", k!"ModeSwitchSenderComSpec", k!"NvProvideComSpec", k!"ParameterProvideComSpec"]

/-- the com specs a port that requires an interface may have -/
def RequiredOk {F : Type} (s : MObj F) : Prop :=
  (s.cls = k!"ClientComSpec" ∧ Targets s k!"operationRef" t!"CLIENT-SERVER-OPERATION") ∨
  (s.cls = k!"NonqueuedReceiverComSpec" ∧ Targets s k!"dataElementRef" t!"VARIABLE-DATA-PROTOTYPE") ∨
  (s.cls = k!"ParameterRequireComSpec" ∧ Targets s k!"parameterRef" t!"PARAMETER-DATA-PROTOTYPE") ∨
  s.cls ∈ [k!"QueuedReceiverComSpec", k!"ModeSwitchReceiverComSpec"]

end Verif.Spec
