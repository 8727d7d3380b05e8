import Verif.Spec.Codec
/-!
# Attributes that do not survive saving

For every class the conditions under which the objects of the class are saved and loaded again without loss.  Each
entry stands for a defect of the reader or the writer; `Props/Defects.lean` shows for them that something is lost if
the condition does not hold.
-/
namespace Verif.Spec
open Verif Verif.Model

def defects : List (Key × Need) := [
  -- The text is put before the inline elements, wherever it was, and pretty printing changes it.
  (k!"LLongName", .empty k!"e"), (k!"LLongName", .empty k!"ie"), (k!"LLongName", .empty k!"tt"),
  -- The text is only written if the attribute `L` is set (`arxml_writer.py:1807-1809`).
  (k!"MultiLanguageParagraph", .inside k!"l1" (.along k!"value" k!"l")),
  -- The reference is read with `setDest(text)` and written with `getValue()`.
  (k!"StructuredReq", .empty k!"testedItemRefs"), (k!"TraceableText", .empty k!"traceRefs"),
  -- `element.text = value.getValue()` drops the attributes `T` and `UUID`.
  (k!"VariationPoint", .plain k!"shortLabel"), (k!"PhysConstrs", .plain k!"monotony"),
  -- An empty `V` is written as `None`.
  (k!"SwValues", .full k!"_v"),
  -- The writer has no method for these classes here.
  (k!"CompositeRuleBasedValueSpecification", .never k!"arguments" k!"ApplicationValueSpecification"),
  (k!"CompositeRuleBasedValueSpecification", .never k!"arguments" k!"ApplicationRuleBasedValueSpecification"),
  (k!"CompositeRuleBasedValueSpecification", .never k!"arguments" k!"NumericalValueSpecification"),
  (k!"CompositeRuleBasedValueSpecification", .never k!"arguments" k!"TextValueSpecification"),
  (k!"CompositeRuleBasedValueSpecification", .never k!"compoundPrimitiveArguments" k!"ApplicationValueSpecification"),
  (k!"CompositeRuleBasedValueSpecification", .never k!"compoundPrimitiveArguments" k!"NumericalValueSpecification"),
  (k!"CompositeRuleBasedValueSpecification", .never k!"compoundPrimitiveArguments" k!"TextValueSpecification"),
  (k!"ArrayValueSpecification", .never k!"element" k!"ConstantReference"),
  (k!"RecordValueSpecification", .never k!"fields" k!"ConstantReference"),
  (k!"ARPackage", .never k!"elements" k!"EcucValueCollection"),
  -- The writer methods for these classes write nothing.
  (k!"ARPackage", .never k!"elements" k!"TriggerInterface"),
  (k!"SwcInternalBehavior", .never k!"elements" k!"InternalTriggerOccurredEvent"),
  -- Children are added to the element of the owner.
  (k!"ModeDeclarationMappingSet", .empty k!"modeDeclarationMappings"),
  (k!"LinTpNode", .empty k!"dropNotRequestedNad"),
  -- These attributes are not written.
  (k!"NonqueuedReceiverComSpec", .empty k!"transformationComSpecProps"),
  (k!"QueuedReceiverComSpec", .empty k!"transformationComSpecProps"),
  (k!"DelegationSwConnector", .empty k!"mappingRef"),
  (k!"RModeInAtomicSwcInstanceRef", .empty k!"baseRef"),
  (k!"InstantiationDataDefProps", .empty k!"timestamp"), (k!"InstantiationDataDefProps", .empty k!"uuid"),
  (k!"RunnableEntity", .never k!"elements" k!"InternalTriggeringPoint"),
  (k!"ModeSwitchPoint", .inside k!"modeGroupIRef" (.empty k!"baseRef")),
  (k!"ModeSwitchPoint", .inside k!"modeGroupIRef" (.empty k!"contextPortRef")),
  (k!"DependencyOnArtifact", .inside k!"artifactDescriptor" (.empty k!"timestamp")),
  (k!"DependencyOnArtifact", .inside k!"artifactDescriptor" (.empty k!"uuid")),
  (k!"DependencyOnArtifact", .inside k!"artifactDescriptor" (.empty k!"shortLabel")),
  (k!"DependencyOnArtifact", .inside k!"artifactDescriptor" (.empty k!"category")),
  (k!"DependencyOnArtifact", .inside k!"artifactDescriptor" (.empty k!"revisionLabels")),
  (k!"DependencyOnArtifact", .inside k!"artifactDescriptor" (.empty k!"domain")),
  (k!"BswModuleDescription", .empty k!"requiredTriggers"),
  (k!"NvBlockDescriptor", .inside k!"ramBlock" (.empty k!"initValue")),
  (k!"NvBlockDescriptor", .inside k!"romBlock" (.empty k!"initValue")),
  (k!"ModeErrorBehavior", .empty k!"timestamp"), (k!"ModeErrorBehavior", .empty k!"uuid"),
  (k!"NPdu", .empty k!"containedIPduProps"),
  -- Each value is written into the element of the one before.
  (k!"PortAPIOption", .single k!"portArgValues"),
  -- Written from another attribute.
  (k!"AsynchronousServerCallReturnsEvent", .same k!"activationReasonRepresentationRef" k!"eventSourceRef"),
  (k!"ReferenceBase", .same k!"isDefault" k!"isGlobal"),
  -- The writer raises an exception if it is not set.
  (k!"ModeSwitchPoint", .oneOf [k!"modeGroupIRef"]),
  -- In strict mode the writer raises if there is no content.
  (k!"CompuScale", .strict (.oneOf [k!"compuScaleContents.compuConst.compuConstContentType.vt", k!"compuScaleContents.compuRationalCoeffs"])),
  -- The sender is only written if there are no receivers.
  (k!"EndToEndProtectionVariablePrototype", .notBoth k!"senderIRef" k!"_receiverIRefs")]

/-- the attributes that are saved in the order of the short names (class and attribute) -/
def savedSorted : List (Key × Key) := [
  (k!"AUTOSAR", k!"arPackages"),
  (k!"ARPackage", k!"arPackages"),
  (k!"CanCluster", k!"physicalChannel"),
  (k!"CanCommunicationConnector", k!"ecuCommPortInstances"),
  (k!"CanFrame", k!"pduToFrameMappings"),
  (k!"CanNmCluster", k!"nmNodes"),
  (k!"CanPhysicalChannel", k!"elements"), (k!"CanPhysicalChannel", k!"frameTriggerings"),
  (k!"EcuInstance", k!"elements"),
  (k!"EcucModuleConfigurationValues", k!"containers"),
  (k!"EndToEndProtectionSet", k!"elements"),
  (k!"EthernetCluster", k!"physicalChannel"),
  (k!"EthernetCommunicationConnector", k!"ecuCommPortInstances"),
  (k!"EthernetPhysicalChannel", k!"elements"), (k!"EthernetPhysicalChannel", k!"frameTriggerings"),
  (k!"FlatMap", k!"instances"),
  (k!"FlexrayCluster", k!"physicalChannel"),
  (k!"FlexrayCommunicationConnector", k!"ecuCommPortInstances"),
  (k!"FlexrayFrame", k!"pduToFrameMappings"),
  (k!"FlexrayPhysicalChannel", k!"elements"), (k!"FlexrayPhysicalChannel", k!"frameTriggerings"),
  (k!"GenericEthernetFrame", k!"pduToFrameMappings"),
  (k!"LinCluster", k!"physicalChannel"),
  (k!"LinCommunicationConnector", k!"ecuCommPortInstances"),
  (k!"LinPhysicalChannel", k!"elements"), (k!"LinPhysicalChannel", k!"frameTriggerings"),
  (k!"LinUnconditionalFrame", k!"pduToFrameMappings"),
  (k!"ModeDeclarationGroup", k!"elements"),
  (k!"NmConfig", k!"elements"),
  (k!"ResourceConsumption", k!"executionTimes"), (k!"ResourceConsumption", k!"heapUsages"), (k!"ResourceConsumption", k!"memorySections"), (k!"ResourceConsumption", k!"sectionNamePrefixes"), (k!"ResourceConsumption", k!"stackUsages"),
  (k!"RunnableEntity", k!"dataReadAccesses"), (k!"RunnableEntity", k!"dataReceivePointByArguments"), (k!"RunnableEntity", k!"dataReceivePointByValues"), (k!"RunnableEntity", k!"dataWriteAccesses"), (k!"RunnableEntity", k!"elements"), (k!"RunnableEntity", k!"modeSwitchPoints"),
  (k!"SwcInternalBehavior", k!"elements"),
  (k!"SwcServiceDependency", k!"serviceNeeds"),
  (k!"System", k!"elements"),
  (k!"UdpNmCluster", k!"nmNodes")]

/-- the conditions on the objects of a class -/
def lossy (c : Key) : List Need := defects.filterMap fun e => if e.1 = c then some e.2 else none

/-- is the attribute saved in the order of the short names -/
def reordered (c f : Key) : Bool := savedSorted.contains (c, f)

/-- Alternatives: attributes of a class of which only one is there in a file, the reader does not set the other one.  (An object that was given both with
the set methods is written with one of them.) -/
def invariants (c : Key) : List Need :=
  if c = k!"CompuScale" then [.notBoth k!"compuScaleContents.compuConst.compuConstContentType.vt" k!"compuScaleContents.compuRationalCoeffs"] else []

/-- all of these conditions -/
def conds (c : Key) : List Need := lossy c ++ invariants c

end Verif.Spec
