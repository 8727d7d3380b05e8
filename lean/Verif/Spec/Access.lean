import Verif.Model.Access
/-!
# Specification of setters, getters and adders
-/
namespace Verif.Spec
open Verif.Model

/-- the name `getX` for the name `setX`: the first letter is replaced (`s` = 115, `g` = 103) -/
def getterName (s : Key) : Key := s - 12 * 256 ^ (Nat.log2 s / 8)

example : getterName k!"setCategory" = k!"getCategory" := by decide
example : getterName k!"setSwImplPolicy" = k!"getSwImplPolicy" := by decide

/-- the setters that share their attribute with an adder, with the class that has both -/
def sharedSetters : List (Key × Key) := [
  (k!"HwPin", k!"setFunctionNames"), (k!"SwcBswMapping", k!"setSynchronizedModeGroups"),
  (k!"SwcBswMapping", k!"setSynchronizedTriggers"), (k!"HwAttributeDef", k!"setHwAttributeLiterals"),
  (k!"BswInternalBehavior", k!"setModeSenderPolicies"), (k!"BswInternalBehavior", k!"setServiceDependencies"),
  (k!"ApplicationInterface", k!"setAttributes"), (k!"ApplicationInterface", k!"setCommands"),
  (k!"ApplicationInterface", k!"setIndications"), (k!"BswModuleDescription", k!"setExpectedEntryRefs"),
  (k!"IdsmModuleInstantiation", k!"setNetworks"), (k!"IdsPlatformInstantiation", k!"setNetworks"),
  (k!"ProvidedServiceInstance", k!"setAllowedServiceConsumerRefs"),
  (k!"ProvidedServiceInstance", k!"setLocalUnicastAddressRefs"),
  (k!"ProvidedServiceInstance", k!"setRemoteMulticastSubscriptionAddressRefs"),
  (k!"ProvidedServiceInstance", k!"setRemoteUnicastAddressRefs"),
  (k!"TransformationISignalProps", k!"setDataPrototypeTransformationProps"),
  (k!"EndToEndTransformationISignalProps", k!"setDataPrototypeTransformationProps")]

variable {α : Type}

/-- the values passed to setter `s`, in order -/
def given (s : Key) (calls : List (Call α)) : List (PV α) :=
  calls.filterMap fun
    | .set m v => if m = s then some v else none
    | .add _ _ => none

/-- the values passed to adder `a`, in order -/
def added (a : Key) (calls : List (Call α)) : List (Option α) :=
  calls.filterMap fun
    | .set _ _ => none
    | .add m v => if m = a then some v else none

/-- the last value of a list, or `old` when the list is empty -/
def lastOr (old : PV α) (vs : List (PV α)) : PV α := vs.getLast?.getD old

/-- the values that are not `None` -/
def notNone [DecidableEq α] (vs : List (PV α)) : List (PV α) := vs.filter fun v => v ≠ .none

end Verif.Spec
