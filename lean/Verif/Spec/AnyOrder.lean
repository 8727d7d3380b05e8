import Verif.Spec.Program
import Mathlib.Logic.Relation
/-!
# Specification for C90: documents that differ only in the order of objects with different names

Independent of how a document is saved.
-/
namespace Verif.Spec
open Verif Verif.Model

/-- The objects that are put in the order of their short names in a file: the class of the owner, the attribute (with `true`: its values are members of the
element collection, too), the classes of the objects. -/
def freeOrder : List (Key × (Key × Bool) × List Key) := [
  (k!"AUTOSAR", (k!"arPackages", false), [k!"ARPackage"]),
  (k!"ARPackage", (k!"arPackages", false), [k!"ARPackage"]),
  (k!"System", (k!"elements", true), [k!"SystemMapping"]),
  (k!"FlatMap", (k!"instances", true), [k!"FlatInstanceDescriptor"]),
  (k!"CanFrame", (k!"pduToFrameMappings", true), [k!"PduToFrameMapping"]),
  (k!"NmConfig", (k!"elements", true), [k!"CanNmCluster", k!"UdpNmCluster"]),
  (k!"CanCluster", (k!"physicalChannel", true), [k!"CanPhysicalChannel", k!"LinPhysicalChannel", k!"EthernetPhysicalChannel", k!"FlexrayPhysicalChannel"]),
  (k!"LinCluster", (k!"physicalChannel", true), [k!"CanPhysicalChannel", k!"LinPhysicalChannel", k!"EthernetPhysicalChannel", k!"FlexrayPhysicalChannel"]),
  (k!"EcuInstance", (k!"elements", true), [k!"CanCommunicationController", k!"EthernetCommunicationController", k!"LinMaster", k!"FlexrayCommunicationController", k!"CanCommunicationConnector", k!"EthernetCommunicationConnector", k!"LinCommunicationConnector", k!"FlexrayCommunicationConnector"]),
  (k!"FlexrayFrame", (k!"pduToFrameMappings", true), [k!"PduToFrameMapping"]),
  (k!"CanNmCluster", (k!"nmNodes", true), [k!"CanNmNode", k!"UdpNmNode", k!"J1939NmNode"]),
  (k!"UdpNmCluster", (k!"nmNodes", true), [k!"CanNmNode", k!"UdpNmNode", k!"J1939NmNode"]),
  (k!"FlexrayCluster", (k!"physicalChannel", true), [k!"CanPhysicalChannel", k!"LinPhysicalChannel", k!"EthernetPhysicalChannel", k!"FlexrayPhysicalChannel"]),
  (k!"EthernetCluster", (k!"physicalChannel", true), [k!"CanPhysicalChannel", k!"LinPhysicalChannel", k!"EthernetPhysicalChannel", k!"FlexrayPhysicalChannel"]),
  (k!"GenericEthernetFrame", (k!"pduToFrameMappings", true), [k!"PduToFrameMapping"]),
  (k!"ModeDeclarationGroup", (k!"elements", true), [k!"ModeDeclaration"]),
  (k!"EndToEndProtectionSet", (k!"elements", true), [k!"EndToEndProtection"]),
  (k!"LinUnconditionalFrame", (k!"pduToFrameMappings", true), [k!"PduToFrameMapping"]),
  (k!"ResourceConsumption", (k!"executionTimes", true), [k!"AnalyzedExecutionTime", k!"MeasuredExecutionTime", k!"RoughEstimateOfExecutionTime", k!"SimulatedExecutionTime"]),
  (k!"ResourceConsumption", (k!"heapUsages", true), [k!"MeasuredHeapUsage", k!"RoughEstimateHeapUsage", k!"WorstCaseHeapUsage"]),
  (k!"ResourceConsumption", (k!"memorySections", true), [k!"MemorySection"]),
  (k!"ResourceConsumption", (k!"sectionNamePrefixes", true), [k!"SectionNamePrefix"]),
  (k!"ResourceConsumption", (k!"stackUsages", true), [k!"RoughEstimateStackUsage", k!"MeasuredStackUsage", k!"WorstCaseStackUsage"]),
  (k!"SwcServiceDependency", (k!"serviceNeeds", true), [k!"NvBlockNeeds", k!"DiagnosticCommunicationManagerNeeds", k!"DiagnosticRoutineNeeds", k!"DiagnosticValueNeeds", k!"DiagnosticEventNeeds", k!"DiagnosticEventInfoNeeds", k!"DiagnosticIoControlNeeds", k!"CryptoServiceNeeds", k!"EcuStateMgrUserNeeds", k!"DtcStatusChangeNotificationNeeds", k!"DltUserNeeds", k!"ComMgrUserNeeds", k!"ErrorTracerNeeds", k!"DiagnosticEnableConditionNeeds", k!"DiagnosticOperationCycleNeeds", k!"DiagnosticStorageConditionNeeds", k!"IndicatorStatusNeeds", k!"FunctionInhibitionAvailabilityNeeds", k!"ObdInfoServiceNeeds", k!"ObdMonitorServiceNeeds", k!"ObdPidServiceNeeds", k!"ObdControlServiceNeeds", k!"ObdRatioServiceNeeds", k!"ObdRatioDenominatorNeeds", k!"DoIpRoutingActivationAuthenticationNeeds", k!"DoIpRoutingActivationConfirmationNeeds", k!"SecureOnBoardCommunicationNeeds", k!"IdsMgrNeeds"]),
  (k!"RunnableEntity", (k!"elements", true), [k!"AsynchronousServerCallResultPoint", k!"SynchronousServerCallPoint", k!"AsynchronousServerCallPoint", k!"ParameterAccess"]),
  (k!"RunnableEntity", (k!"dataReadAccesses", true), [k!"VariableAccess"]),
  (k!"RunnableEntity", (k!"dataReceivePointByArguments", true), [k!"VariableAccess"]),
  (k!"RunnableEntity", (k!"dataReceivePointByValues", true), [k!"VariableAccess"]),
  (k!"RunnableEntity", (k!"dataWriteAccesses", true), [k!"VariableAccess"]),
  (k!"RunnableEntity", (k!"modeSwitchPoints", true), [k!"ModeSwitchPoint"]),
  (k!"CanCommunicationConnector", (k!"ecuCommPortInstances", true), [k!"FramePort", k!"IPduPort", k!"ISignalPort"]),
  (k!"LinCommunicationConnector", (k!"ecuCommPortInstances", true), [k!"FramePort", k!"IPduPort", k!"ISignalPort"]),
  (k!"FlexrayCommunicationConnector", (k!"ecuCommPortInstances", true), [k!"FramePort", k!"IPduPort", k!"ISignalPort"]),
  (k!"EthernetCommunicationConnector", (k!"ecuCommPortInstances", true), [k!"FramePort", k!"IPduPort", k!"ISignalPort"]),
  (k!"CanPhysicalChannel", (k!"frameTriggerings", true), [k!"CanFrameTriggering", k!"LinFrameTriggering", k!"FlexrayFrameTriggering"]),
  (k!"CanPhysicalChannel", (k!"elements", true), [k!"ISignalTriggering", k!"PduTriggering"]),
  (k!"LinPhysicalChannel", (k!"frameTriggerings", true), [k!"CanFrameTriggering", k!"LinFrameTriggering", k!"FlexrayFrameTriggering"]),
  (k!"LinPhysicalChannel", (k!"elements", true), [k!"ISignalTriggering", k!"PduTriggering"]),
  (k!"FlexrayPhysicalChannel", (k!"frameTriggerings", true), [k!"CanFrameTriggering", k!"LinFrameTriggering", k!"FlexrayFrameTriggering"]),
  (k!"FlexrayPhysicalChannel", (k!"elements", true), [k!"ISignalTriggering", k!"PduTriggering"]),
  (k!"SwcInternalBehavior", (k!"elements", true), [k!"TimingEvent", k!"SwcModeSwitchEvent", k!"OperationInvokedEvent", k!"DataReceivedEvent", k!"InternalTriggerOccurredEvent", k!"InitEvent", k!"AsynchronousServerCallReturnsEvent", k!"ModeSwitchedAckEvent", k!"BackgroundEvent", k!"DataSendCompletedEvent", k!"RunnableEntity", k!"SwcServiceDependency"]),
  (k!"EthernetPhysicalChannel", (k!"frameTriggerings", true), [k!"CanFrameTriggering", k!"LinFrameTriggering", k!"FlexrayFrameTriggering"]),
  (k!"EthernetPhysicalChannel", (k!"elements", true), [k!"ISignalTriggering", k!"PduTriggering"])]

/-- `o'` is `o` with the values of one attribute of some object in it in another order, an attribute in `freeOrder` of which no two values have the same name. -/
inductive Moved {F : Type} : MObj F → MObj F → Prop
  | here {c : Key} {l r : List ((Key × Bool) × List (MObj F))} {a : Key × Bool} {vs vs' : List (MObj F)} {K : List Key} (hK : (c, a, K) ∈ freeOrder)
      (hc : ∀ v ∈ vs, v.cls ∈ K) (hn : (vs.map MObj.name).Nodup) (hp : vs.Perm vs') : Moved (.mk c (l ++ (a, vs) :: r)) (.mk c (l ++ (a, vs') :: r))
  | inside {c : Key} {l r : List ((Key × Bool) × List (MObj F))} {a : Key × Bool} {us ws : List (MObj F)} {v v' : MObj F} (h : Moved v v') :
      Moved (.mk c (l ++ (a, us ++ v :: ws) :: r)) (.mk c (l ++ (a, us ++ v' :: ws) :: r))

/-- the same document but for such changes of the order, any number of them -/
def SameButOrder {F : Type} : MObj F → MObj F → Prop := Relation.ReflTransGen Moved

end Verif.Spec
