import Verif.Lemmas.PairTable
/-! Generated by `tools/gen_witness.py`: for every entry of `Spec.defects`, in the same order, a pair of a reader and a
writer method and an element that shows that something is lost. -/
namespace Verif.Gen
open Verif Verif.Model Verif.Lemmas

def witnesses : List (Pair × Xml) := [
  -- LLongName .empty k!"e"
  (⟨k!"readLLongName_LLongName", k!"setLLongName_LLongName", k!"L-4", []⟩,
    .node k!"L-4" [] [] [.node k!"E" [] [] []]),
  -- LLongName .empty k!"ie"
  (⟨k!"readLLongName_LLongName", k!"setLLongName_LLongName", k!"L-4", []⟩,
    .node k!"L-4" [] [] [.node k!"IE" [] [] []]),
  -- LLongName .empty k!"tt"
  (⟨k!"readLLongName_LLongName", k!"setLLongName_LLongName", k!"L-4", []⟩,
    .node k!"L-4" [] [] [.node k!"TT" [] [] []]),
  -- MultiLanguageParagraph .inside k!"l1" (.along k!"value" k!"l")
  (⟨k!"getMultiLanguageParagraphs_MultiLanguageParagraph", k!"writeDocumentationBlock_DEF_DocumentationBlock_L1813", k!"P", []⟩,
    .node k!"P" [] [] [.node k!"L-1" [] "x".toList []]),
  -- StructuredReq .empty k!"testedItemRefs"
  (⟨k!"getStructuredReq_StructuredReq", k!"setStructuredReq_StructuredReq", k!"STRUCTURED-REQ", []⟩,
    .node k!"STRUCTURED-REQ" [] [] [.node k!"TESTED-ITEM-REFS" [] [] [.node k!"TESTED-ITEM-REF" [] "x".toList []]]),
  -- TraceableText .empty k!"traceRefs"
  (⟨k!"getTraceableText_TraceableText", k!"setTraceableText_TRACE_TraceableText", k!"TRACE", []⟩,
    .node k!"TRACE" [] [] [.node k!"TRACE-REFS" [] [] [.node k!"TRACE-REF" [] "x".toList []]]),
  -- VariationPoint .plain k!"shortLabel"
  (⟨k!"readIdentifiable_VariationPoint", k!"writeVariationPoint_VariationPoint", k!"VARIATION-POINT", []⟩,
    .node k!"VARIATION-POINT" [] [] [.node k!"SHORT-LABEL" [(k!"T", "t".toList)] "x".toList []]),
  -- PhysConstrs .plain k!"monotony"
  (⟨k!"readPhysConstrs_PhysConstrs", k!"setPhysConstrs_PhysConstrs", k!"PHYS-CONSTRS", []⟩,
    .node k!"PHYS-CONSTRS" [] [] [.node k!"MONOTONY" [(k!"T", "t".toList)] "x".toList []]),
  -- SwValues .full k!"_v"
  (⟨k!"getSwValues_SwValues", k!"setSwValues_SW_VALUES_PHYS_SwValues", k!"SW-VALUES-PHYS", []⟩,
    .node k!"SW-VALUES-PHYS" [] [] [.node k!"V" [] [] []]),
  -- CompositeRuleBasedValueSpecification .never k!"arguments" k!"ApplicationValueSpecification"
  (⟨k!"getCompositeRuleBasedValueSpecification_CompositeRuleBasedValueSpecification", k!"writeCompositeRuleBasedValueSpecification_CompositeRuleBasedValueSpecification", k!"COMPOSITE-RULE-BASED-VALUE-SPECIFICATION", []⟩,
    .node k!"COMPOSITE-RULE-BASED-VALUE-SPECIFICATION" [] [] [.node k!"ARGUMENTS" [] [] [.node k!"APPLICATION-VALUE-SPECIFICATION" [] [] []]]),
  -- CompositeRuleBasedValueSpecification .never k!"arguments" k!"ApplicationRuleBasedValueSpecification"
  (⟨k!"getCompositeRuleBasedValueSpecification_CompositeRuleBasedValueSpecification", k!"writeCompositeRuleBasedValueSpecification_CompositeRuleBasedValueSpecification", k!"COMPOSITE-RULE-BASED-VALUE-SPECIFICATION", []⟩,
    .node k!"COMPOSITE-RULE-BASED-VALUE-SPECIFICATION" [] [] [.node k!"ARGUMENTS" [] [] [.node k!"APPLICATION-RULE-BASED-VALUE-SPECIFICATION" [] [] []]]),
  -- CompositeRuleBasedValueSpecification .never k!"arguments" k!"NumericalValueSpecification"
  (⟨k!"getCompositeRuleBasedValueSpecification_CompositeRuleBasedValueSpecification", k!"writeCompositeRuleBasedValueSpecification_CompositeRuleBasedValueSpecification", k!"COMPOSITE-RULE-BASED-VALUE-SPECIFICATION", []⟩,
    .node k!"COMPOSITE-RULE-BASED-VALUE-SPECIFICATION" [] [] [.node k!"ARGUMENTS" [] [] [.node k!"NUMERICAL-VALUE-SPECIFICATION" [] [] []]]),
  -- CompositeRuleBasedValueSpecification .never k!"arguments" k!"TextValueSpecification"
  (⟨k!"getCompositeRuleBasedValueSpecification_CompositeRuleBasedValueSpecification", k!"writeCompositeRuleBasedValueSpecification_CompositeRuleBasedValueSpecification", k!"COMPOSITE-RULE-BASED-VALUE-SPECIFICATION", []⟩,
    .node k!"COMPOSITE-RULE-BASED-VALUE-SPECIFICATION" [] [] [.node k!"ARGUMENTS" [] [] [.node k!"TEXT-VALUE-SPECIFICATION" [] [] []]]),
  -- CompositeRuleBasedValueSpecification .never k!"compoundPrimitiveArguments" k!"ApplicationValueSpecification"
  (⟨k!"getCompositeRuleBasedValueSpecification_CompositeRuleBasedValueSpecification", k!"writeCompositeRuleBasedValueSpecification_CompositeRuleBasedValueSpecification", k!"COMPOSITE-RULE-BASED-VALUE-SPECIFICATION", []⟩,
    .node k!"COMPOSITE-RULE-BASED-VALUE-SPECIFICATION" [] [] [.node k!"COMPOUND-PRIMITIVE-ARGUMENTS" [] [] [.node k!"APPLICATION-VALUE-SPECIFICATION" [] [] []]]),
  -- CompositeRuleBasedValueSpecification .never k!"compoundPrimitiveArguments" k!"NumericalValueSpecification"
  (⟨k!"getCompositeRuleBasedValueSpecification_CompositeRuleBasedValueSpecification", k!"writeCompositeRuleBasedValueSpecification_CompositeRuleBasedValueSpecification", k!"COMPOSITE-RULE-BASED-VALUE-SPECIFICATION", []⟩,
    .node k!"COMPOSITE-RULE-BASED-VALUE-SPECIFICATION" [] [] [.node k!"COMPOUND-PRIMITIVE-ARGUMENTS" [] [] [.node k!"NUMERICAL-VALUE-SPECIFICATION" [] [] []]]),
  -- CompositeRuleBasedValueSpecification .never k!"compoundPrimitiveArguments" k!"TextValueSpecification"
  (⟨k!"getCompositeRuleBasedValueSpecification_CompositeRuleBasedValueSpecification", k!"writeCompositeRuleBasedValueSpecification_CompositeRuleBasedValueSpecification", k!"COMPOSITE-RULE-BASED-VALUE-SPECIFICATION", []⟩,
    .node k!"COMPOSITE-RULE-BASED-VALUE-SPECIFICATION" [] [] [.node k!"COMPOUND-PRIMITIVE-ARGUMENTS" [] [] [.node k!"TEXT-VALUE-SPECIFICATION" [] [] []]]),
  -- ArrayValueSpecification .never k!"element" k!"ConstantReference"
  (⟨k!"getArrayValueSpecification_ArrayValueSpecification", k!"writeArrayValueSpecification_ArrayValueSpecification", k!"ARRAY-VALUE-SPECIFICATION", []⟩,
    .node k!"ARRAY-VALUE-SPECIFICATION" [] [] [.node k!"ELEMENTS" [] [] [.node k!"CONSTANT-REFERENCE" [] [] []]]),
  -- RecordValueSpecification .never k!"fields" k!"ConstantReference"
  (⟨k!"getRecordValueSpecification_RecordValueSpecification", k!"writeRecordValueSpecification_RecordValueSpecification", k!"RECORD-VALUE-SPECIFICATION", []⟩,
    .node k!"RECORD-VALUE-SPECIFICATION" [] [] [.node k!"FIELDS" [] [] [.node k!"CONSTANT-REFERENCE" [] [] []]]),
  -- ARPackage .never k!"elements" k!"EcucValueCollection"
  (⟨k!"readARPackages_ARPackage", k!"writeARPackage_ARPackage", k!"AR-PACKAGE", []⟩,
    .node k!"AR-PACKAGE" [] [] [.node k!"SHORT-NAME" [] "n".toList [], .node k!"ELEMENTS" [] [] [.node k!"ECUC-VALUE-COLLECTION" [] [] [.node k!"SHORT-NAME" [] "n".toList []]]]),
  -- ARPackage .never k!"elements" k!"TriggerInterface"
  (⟨k!"readARPackages_ARPackage", k!"writeARPackage_ARPackage", k!"AR-PACKAGE", []⟩,
    .node k!"AR-PACKAGE" [] [] [.node k!"SHORT-NAME" [] "n".toList [], .node k!"ELEMENTS" [] [] [.node k!"TRIGGER-INTERFACE" [] [] [.node k!"SHORT-NAME" [] "n".toList []]]]),
  -- SwcInternalBehavior .never k!"elements" k!"InternalTriggerOccurredEvent"
  (⟨k!"readAtomicSwComponentTypeSwcInternalBehavior_SwcInternalBehavior", k!"writeSwcInternalBehavior_SwcInternalBehavior", k!"SWC-INTERNAL-BEHAVIOR", []⟩,
    .node k!"SWC-INTERNAL-BEHAVIOR" [] [] [.node k!"SHORT-NAME" [] "n".toList [], .node k!"EVENTS" [] [] [.node k!"INTERNAL-TRIGGER-OCCURRED-EVENT" [] [] [.node k!"SHORT-NAME" [] "n".toList []]]]),
  -- ModeDeclarationMappingSet .empty k!"modeDeclarationMappings"
  (⟨k!"readARPackageElements_ModeDeclarationMappingSet", k!"writeModeDeclarationMappingSet_ModeDeclarationMappingSet", k!"MODE-DECLARATION-MAPPING-SET", []⟩,
    .node k!"MODE-DECLARATION-MAPPING-SET" [] [] [.node k!"SHORT-NAME" [] "n".toList [], .node k!"MODE-DECLARATION-MAPPINGS" [] [] [.node k!"MODE-DECLARATION-MAPPING" [] [] [.node k!"SHORT-NAME" [] "n".toList []]]]),
  -- LinTpNode .empty k!"dropNotRequestedNad"
  (⟨k!"readLinTpConfigTpNodes_LinTpNode", k!"writeLinTpNode_LinTpNode", k!"LIN-TP-NODE", []⟩,
    .node k!"LIN-TP-NODE" [] [] [.node k!"SHORT-NAME" [] "n".toList [], .node k!"DROP-NOT-REQUESTED-NAD" [] "true".toList []]),
  -- NonqueuedReceiverComSpec .empty k!"transformationComSpecProps"
  (⟨k!"getNonqueuedReceiverComSpec_NonqueuedReceiverComSpec", k!"writeNonqueuedReceiverComSpec_NonqueuedReceiverComSpec", k!"NONQUEUED-RECEIVER-COM-SPEC", []⟩,
    .node k!"NONQUEUED-RECEIVER-COM-SPEC" [] [] [.node k!"TRANSFORMATION-COM-SPEC-PROPSS" [] [] [.node k!"TRANSFORMATION-COM-SPEC-PROPS" [] [] [.node k!"END-TO-END-TRANSFORMATION-COM-SPEC-PROPS" [] [] []]]]),
  -- QueuedReceiverComSpec .empty k!"transformationComSpecProps"
  (⟨k!"getQueuedReceiverComSpec_QueuedReceiverComSpec", k!"writeQueuedReceiverComSpec_QueuedReceiverComSpec", k!"QUEUED-RECEIVER-COM-SPEC", []⟩,
    .node k!"QUEUED-RECEIVER-COM-SPEC" [] [] [.node k!"TRANSFORMATION-COM-SPEC-PROPSS" [] [] [.node k!"TRANSFORMATION-COM-SPEC-PROPS" [] [] [.node k!"END-TO-END-TRANSFORMATION-COM-SPEC-PROPS" [] [] []]]]),
  -- DelegationSwConnector .empty k!"mappingRef"
  (⟨k!"readCompositionSwComponentTypeSwConnectors_DelegationSwConnector", k!"writeDelegationSwConnector_DelegationSwConnector", k!"DELEGATION-SW-CONNECTOR", []⟩,
    .node k!"DELEGATION-SW-CONNECTOR" [] [] [.node k!"SHORT-NAME" [] "n".toList [], .node k!"MAPPING-REF" [] "x".toList [], .node k!"INNER-PORT-IREF" [] [] [.node k!"R-PORT-IN-COMPOSITION-INSTANCE-REF" [] [] []]]),
  -- RModeInAtomicSwcInstanceRef .empty k!"baseRef"
  (⟨k!"getRModeInAtomicSwcInstanceRef_RModeInAtomicSwcInstanceRef", k!"setRModeInAtomicSwcInstanceRef_DISABLED_MODE_IREF_RModeInAtomicSwcInstanceRef", k!"DISABLED-MODE-IREF", []⟩,
    .node k!"DISABLED-MODE-IREF" [] [] [.node k!"BASE-REF" [] "x".toList []]),
  -- InstantiationDataDefProps .empty k!"timestamp"
  (⟨k!"readNvBlockDescriptor_InstantiationDataDefProps", k!"writeNvBlockDescriptor_NvBlockDescriptor_L2773", k!"INSTANTIATION-DATA-DEF-PROPS", []⟩,
    .node k!"INSTANTIATION-DATA-DEF-PROPS" [(k!"T", "x".toList)] [] []),
  -- InstantiationDataDefProps .empty k!"uuid"
  (⟨k!"readNvBlockDescriptor_InstantiationDataDefProps", k!"writeNvBlockDescriptor_NvBlockDescriptor_L2773", k!"INSTANTIATION-DATA-DEF-PROPS", []⟩,
    .node k!"INSTANTIATION-DATA-DEF-PROPS" [(k!"UUID", "x".toList)] [] []),
  -- RunnableEntity .never k!"elements" k!"InternalTriggeringPoint"
  (⟨k!"readSwcInternalBehaviorRunnables_RunnableEntity", k!"writeRunnableEntity_RunnableEntity", k!"RUNNABLE-ENTITY", []⟩,
    .node k!"RUNNABLE-ENTITY" [] [] [.node k!"SHORT-NAME" [] "n".toList [], .node k!"INTERNAL-TRIGGERING-POINTS" [] [] [.node k!"INTERNAL-TRIGGERING-POINT" [] [] [.node k!"SHORT-NAME" [] "n".toList []]]]),
  -- ModeSwitchPoint .inside k!"modeGroupIRef" (.empty k!"baseRef")
  (⟨k!"readRunnableEntityModeSwitchPoints_ModeSwitchPoint", k!"writeModeSwitchPoint_ModeSwitchPoint", k!"MODE-SWITCH-POINT", []⟩,
    .node k!"MODE-SWITCH-POINT" [] [] [.node k!"SHORT-NAME" [] "n".toList [], .node k!"MODE-GROUP-IREF" [] [] [.node k!"BASE-REF" [] "x".toList []]]),
  -- ModeSwitchPoint .inside k!"modeGroupIRef" (.empty k!"contextPortRef")
  (⟨k!"readRunnableEntityModeSwitchPoints_ModeSwitchPoint", k!"writeModeSwitchPoint_ModeSwitchPoint", k!"MODE-SWITCH-POINT", []⟩,
    .node k!"MODE-SWITCH-POINT" [] [] [.node k!"SHORT-NAME" [] "n".toList [], .node k!"MODE-GROUP-IREF" [] [] [.node k!"CONTEXT-PORT-REF" [] "x".toList []]]),
  -- DependencyOnArtifact .inside k!"artifactDescriptor" (.empty k!"timestamp")
  (⟨k!"readDependencyOnArtifact_DependencyOnArtifact", k!"writeDependencyOnArtifact_DependencyOnArtifact", k!"DEPENDENCY-ON-ARTIFACT", []⟩,
    .node k!"DEPENDENCY-ON-ARTIFACT" [] [] [.node k!"SHORT-NAME" [] "n".toList [], .node k!"ARTIFACT-DESCRIPTOR" [(k!"T", "x".toList)] [] []]),
  -- DependencyOnArtifact .inside k!"artifactDescriptor" (.empty k!"uuid")
  (⟨k!"readDependencyOnArtifact_DependencyOnArtifact", k!"writeDependencyOnArtifact_DependencyOnArtifact", k!"DEPENDENCY-ON-ARTIFACT", []⟩,
    .node k!"DEPENDENCY-ON-ARTIFACT" [] [] [.node k!"SHORT-NAME" [] "n".toList [], .node k!"ARTIFACT-DESCRIPTOR" [(k!"UUID", "x".toList)] [] []]),
  -- DependencyOnArtifact .inside k!"artifactDescriptor" (.empty k!"shortLabel")
  (⟨k!"readDependencyOnArtifact_DependencyOnArtifact", k!"writeDependencyOnArtifact_DependencyOnArtifact", k!"DEPENDENCY-ON-ARTIFACT", []⟩,
    .node k!"DEPENDENCY-ON-ARTIFACT" [] [] [.node k!"SHORT-NAME" [] "n".toList [], .node k!"ARTIFACT-DESCRIPTOR" [] [] [.node k!"SHORT-LABEL" [] "x".toList []]]),
  -- DependencyOnArtifact .inside k!"artifactDescriptor" (.empty k!"category")
  (⟨k!"readDependencyOnArtifact_DependencyOnArtifact", k!"writeDependencyOnArtifact_DependencyOnArtifact", k!"DEPENDENCY-ON-ARTIFACT", []⟩,
    .node k!"DEPENDENCY-ON-ARTIFACT" [] [] [.node k!"SHORT-NAME" [] "n".toList [], .node k!"ARTIFACT-DESCRIPTOR" [] [] [.node k!"CATEGORY" [] "x".toList []]]),
  -- DependencyOnArtifact .inside k!"artifactDescriptor" (.empty k!"revisionLabels")
  (⟨k!"readDependencyOnArtifact_DependencyOnArtifact", k!"writeDependencyOnArtifact_DependencyOnArtifact", k!"DEPENDENCY-ON-ARTIFACT", []⟩,
    .node k!"DEPENDENCY-ON-ARTIFACT" [] [] [.node k!"SHORT-NAME" [] "n".toList [], .node k!"ARTIFACT-DESCRIPTOR" [] [] [.node k!"REVISION-LABELS" [] [] [.node k!"REVISION-LABEL" [] "1.0.0".toList []]]]),
  -- DependencyOnArtifact .inside k!"artifactDescriptor" (.empty k!"domain")
  (⟨k!"readDependencyOnArtifact_DependencyOnArtifact", k!"writeDependencyOnArtifact_DependencyOnArtifact", k!"DEPENDENCY-ON-ARTIFACT", []⟩,
    .node k!"DEPENDENCY-ON-ARTIFACT" [] [] [.node k!"SHORT-NAME" [] "n".toList [], .node k!"ARTIFACT-DESCRIPTOR" [] [] [.node k!"DOMAIN" [] "x".toList []]]),
  -- BswModuleDescription .empty k!"requiredTriggers"
  (⟨k!"readARPackageElements_BswModuleDescription", k!"writeBswModuleDescription_BswModuleDescription", k!"BSW-MODULE-DESCRIPTION", []⟩,
    .node k!"BSW-MODULE-DESCRIPTION" [] [] [.node k!"SHORT-NAME" [] "n".toList [], .node k!"REQUIRED-TRIGGERS" [] [] [.node k!"TRIGGER" [] [] [.node k!"SHORT-NAME" [] "n".toList []]]]),
  -- NvBlockDescriptor .inside k!"ramBlock" (.empty k!"initValue")
  (⟨k!"readNvBlockSwComponentType_NvBlockDescriptor", k!"writeNvBlockDescriptor_NvBlockDescriptor", k!"NV-BLOCK-DESCRIPTOR", []⟩,
    .node k!"NV-BLOCK-DESCRIPTOR" [] [] [.node k!"SHORT-NAME" [] "n".toList [], .node k!"RAM-BLOCK" [] [] [.node k!"SHORT-NAME" [] "n".toList [], .node k!"INIT-VALUE" [] [] [.node k!"APPLICATION-VALUE-SPECIFICATION" [] [] []]]]),
  -- NvBlockDescriptor .inside k!"romBlock" (.empty k!"initValue")
  (⟨k!"readNvBlockSwComponentType_NvBlockDescriptor", k!"writeNvBlockDescriptor_NvBlockDescriptor", k!"NV-BLOCK-DESCRIPTOR", []⟩,
    .node k!"NV-BLOCK-DESCRIPTOR" [] [] [.node k!"SHORT-NAME" [] "n".toList [], .node k!"ROM-BLOCK" [] [] [.node k!"SHORT-NAME" [] "n".toList [], .node k!"INIT-VALUE" [] [] [.node k!"APPLICATION-VALUE-SPECIFICATION" [] [] []]]]),
  -- ModeErrorBehavior .empty k!"timestamp"
  (⟨k!"readModeErrorBehavior_ModeErrorBehavior", k!"writeModeErrorBehavior_MODE_MANAGER_ERROR_BEHAVIOR_ModeErrorBehavior", k!"MODE-MANAGER-ERROR-BEHAVIOR", []⟩,
    .node k!"MODE-MANAGER-ERROR-BEHAVIOR" [(k!"T", "x".toList)] [] []),
  -- ModeErrorBehavior .empty k!"uuid"
  (⟨k!"readModeErrorBehavior_ModeErrorBehavior", k!"writeModeErrorBehavior_MODE_MANAGER_ERROR_BEHAVIOR_ModeErrorBehavior", k!"MODE-MANAGER-ERROR-BEHAVIOR", []⟩,
    .node k!"MODE-MANAGER-ERROR-BEHAVIOR" [(k!"UUID", "x".toList)] [] []),
  -- NPdu .empty k!"containedIPduProps"
  (⟨k!"readARPackageElements_NPdu", k!"writeNPdu_NPdu", k!"N-PDU", []⟩,
    .node k!"N-PDU" [] [] [.node k!"SHORT-NAME" [] "n".toList [], .node k!"CONTAINED-I-PDU-PROPS" [] [] []]),
  -- PortAPIOption .single k!"portArgValues"
  (⟨k!"readSwcInternalBehaviorPortAPIOptions_PortAPIOption", k!"writeSwcInternalBehaviorPortAPIOptions_SwcInternalBehavior_L3323", k!"PORT-API-OPTION", []⟩,
    .node k!"PORT-API-OPTION" [] [] [.node k!"PORT-ARG-VALUES" [] [] [.node k!"PORT-DEFINED-ARGUMENT-VALUE" [] [] [], .node k!"PORT-DEFINED-ARGUMENT-VALUE" [] [] []]]),
  -- AsynchronousServerCallReturnsEvent .same k!"activationReasonRepresentationRef" k!"eventSourceRef"
  (⟨k!"readSwcInternalBehaviorEvents_AsynchronousServerCallReturnsEvent", k!"writeAsynchronousServerCallReturnsEvent_AsynchronousServerCallReturnsEvent", k!"ASYNCHRONOUS-SERVER-CALL-RETURNS-EVENT", []⟩,
    .node k!"ASYNCHRONOUS-SERVER-CALL-RETURNS-EVENT" [] [] [.node k!"SHORT-NAME" [] "n".toList [], .node k!"ACTIVATION-REASON-REPRESENTATION-REF" [] "x".toList []]),
  -- ReferenceBase .same k!"isDefault" k!"isGlobal"
  (⟨k!"readReferenceBases_ReferenceBase", k!"writeARPackage_ARPackage_L9513", k!"REFERENCE-BASE", []⟩,
    .node k!"REFERENCE-BASE" [] [] [.node k!"IS-DEFAULT" [] "true".toList []]),
  -- ModeSwitchPoint .oneOf [k!"modeGroupIRef"]
  (⟨k!"readRunnableEntityModeSwitchPoints_ModeSwitchPoint", k!"writeModeSwitchPoint_ModeSwitchPoint", k!"MODE-SWITCH-POINT", []⟩,
    .node k!"MODE-SWITCH-POINT" [] [] [.node k!"SHORT-NAME" [] "n".toList []]),
  -- CompuScale .strict (.oneOf [k!"compuScaleContents.compuConst.compuConstContentType.vt", k!"compuScaleContents.compuRationalCoeffs"])
  (⟨k!"getCompuScales_CompuScale", k!"writeCompuScale_COMPU_SCALE_CompuScale", k!"COMPU-SCALE", []⟩,
    .node k!"COMPU-SCALE" [] [] []),
  -- EndToEndProtectionVariablePrototype .notBoth k!"senderIRef" k!"_receiverIRefs"
  (⟨k!"readEndToEndProtectionEndToEndProtectionVariablePrototypes_EndToEndProtectionVariablePrototype", k!"writeEndToEndProtectionVariablePrototype_EndToEndProtectionVariablePrototype", k!"END-TO-END-PROTECTION-VARIABLE-PROTOTYPE", []⟩,
    .node k!"END-TO-END-PROTECTION-VARIABLE-PROTOTYPE" [] [] [.node k!"RECEIVER-IREFS" [] [] [.node k!"RECEIVER-IREF" [] [] []], .node k!"SENDER-IREF" [] [] []])]

end Verif.Gen
