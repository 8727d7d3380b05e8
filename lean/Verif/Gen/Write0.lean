import Verif.Model.Codec
-- generated by tools/gen_codec.py; do not edit
namespace Verif.Gen.W
open Verif Verif.Model

/-- `setAbstractProvidedPortPrototype`, `writer/arxml_writer.py:1355-1360` -/
def setAbstractProvidedPortPrototype_PRPortPrototype : WB :=
  /- 1358 -/ .wrap (.any [(k!"providedComSpecs", [])]) k!"PROVIDED-COM-SPECS" (
    /- 1360 -/ .each k!"providedComSpecs" [] .plain [⟨[(false, [k!"NonqueuedSenderComSpec"])], [], k!"writeNonqueuedSenderComSpec_NonqueuedSenderComSpec"⟩,
      ⟨[(false, [k!"ServerComSpec"])], [k!"NonqueuedSenderComSpec"], k!"writeServerComSpec_ServerComSpec"⟩,
      ⟨[(false, [k!"QueuedSenderComSpec"])], [k!"NonqueuedSenderComSpec", k!"ServerComSpec"], k!"writeQueuedSenderComSpec_QueuedSenderComSpec"⟩,
      ⟨[(false, [k!"ModeSwitchSenderComSpec"])], [k!"NonqueuedSenderComSpec", k!"ServerComSpec", k!"QueuedSenderComSpec"], k!"writeModeSwitchSenderComSpec_ModeSwitchSenderComSpec"⟩,
      ⟨[(false, [k!"NvProvideComSpec"])], [k!"NonqueuedSenderComSpec", k!"ServerComSpec", k!"QueuedSenderComSpec", k!"ModeSwitchSenderComSpec"], k!"writeNvProvideComSpec_NvProvideComSpec"⟩,
      ⟨[(false, [k!"ParameterProvideComSpec"])], [k!"NonqueuedSenderComSpec", k!"ServerComSpec", k!"QueuedSenderComSpec", k!"ModeSwitchSenderComSpec", k!"NvProvideComSpec"], k!"writeParameterProvideComSpec_ParameterProvideComSpec"⟩] .unsupported <|
    .nil) <|
  .nil

/-- `setAbstractRequiredPortPrototype`, `writer/arxml_writer.py:1371-1376` -/
def setAbstractRequiredPortPrototype_PRPortPrototype : WB :=
  /- 1374 -/ .wrap (.any [(k!"requiredComSpecs", [])]) k!"REQUIRED-COM-SPECS" (
    /- 1376 -/ .each k!"requiredComSpecs" [] .plain [⟨[(false, [k!"NonqueuedReceiverComSpec"])], [], k!"writeNonqueuedReceiverComSpec_NonqueuedReceiverComSpec"⟩,
      ⟨[(false, [k!"QueuedReceiverComSpec"])], [k!"NonqueuedReceiverComSpec"], k!"writeQueuedReceiverComSpec_QueuedReceiverComSpec"⟩,
      ⟨[(false, [k!"ClientComSpec"])], [k!"NonqueuedReceiverComSpec", k!"QueuedReceiverComSpec"], k!"writeClientComSpec_ClientComSpec"⟩,
      ⟨[(false, [k!"ModeSwitchReceiverComSpec"])], [k!"NonqueuedReceiverComSpec", k!"QueuedReceiverComSpec", k!"ClientComSpec"], k!"setModeSwitchReceiverComSpec_ModeSwitchReceiverComSpec"⟩,
      ⟨[(false, [k!"ParameterRequireComSpec"])], [k!"NonqueuedReceiverComSpec", k!"QueuedReceiverComSpec", k!"ClientComSpec", k!"ModeSwitchReceiverComSpec"], k!"writeParameterRequireComSpec_ParameterRequireComSpec"⟩,
      ⟨[(false, [k!"NvRequireComSpec"])], [k!"NonqueuedReceiverComSpec", k!"QueuedReceiverComSpec", k!"ClientComSpec", k!"ModeSwitchReceiverComSpec", k!"ParameterRequireComSpec"], k!"writeNvRequireComSpec_NvRequireComSpec"⟩] .skip <|
    .nil) <|
  .nil

/-- `writeAdminDataSdgs`, `writer/arxml_writer.py:822-827` -/
def writeAdminDataSdgs_AdminData : WB :=
  /- 825 -/ .wrap (.any [(k!"sdgs", [])]) k!"SDGS" (
    /- 827 -/ .each k!"sdgs" [] .plain [⟨[], [], k!"setSdg_Sdg"⟩] .skip <|
    .nil) <|
  .nil

/-- `writeAdminDataDocRevisions`, `writer/arxml_writer.py:976-984` -/
def writeAdminDataDocRevisions_AdminData : WB :=
  /- 979 -/ .wrap (.any [(k!"DocRevisions", [])]) k!"DOC-REVISIONS" (
    /- 982 -/ .each k!"DocRevisions" [] .plain [⟨[(false, [k!"DocRevision"])], [], k!"writeDocRevision_DocRevision"⟩] .unsupported <|
    .nil) <|
  .nil

/-- `setAdminData`, `writer/arxml_writer.py:986-994` -/
def setAdminData_AdminData : WB :=
  /- 989 -/ .wrap .always k!"ADMIN-DATA" (
    /- 990 -/ .attr k!"T" .raw k!"timestamp" <|
    /- 990 -/ .attr k!"UUID" .raw k!"uuid" <|
    /- 991 -/ .prim k!"LANGUAGE" .lit k!"language" <|
    /- 992 -/ .each k!"usedLanguages" [] .plain [⟨[], [], k!"setMultiLanguagePlainText_USED_LANGUAGES_MultiLanguagePlainText"⟩] .skip <|
    /- 993 -/ writeAdminDataSdgs_AdminData.app <|
    /- 994 -/ writeAdminDataDocRevisions_AdminData.app <|
    .nil) <|
  .nil

/-- `setAnyInstanceRef`, `writer/arxml_writer.py:8313-8320` -/
def setAnyInstanceRef_ECU_EXTRACT_REFERENCE_IREF_AnyInstanceRef : WB :=
  /- 8315 -/ .wrap .always k!"ECU-EXTRACT-REFERENCE-IREF" (
    /- 8316 -/ .prim k!"BASE-REF" .ref k!"baseRef" <|
    /- 8318 -/ .prim k!"CONTEXT-ELEMENT-REF" .ref k!"contextElementRefs" <|
    /- 8319 -/ .prim k!"TARGET-REF" .ref k!"targetRef" <|
    .nil) <|
  .nil

/-- `setAnyInstanceRef`, `writer/arxml_writer.py:8313-8320` -/
def setAnyInstanceRef_FEATURE_IREF_AnyInstanceRef : WB :=
  /- 8315 -/ .wrap .always k!"FEATURE-IREF" (
    /- 8316 -/ .prim k!"BASE-REF" .ref k!"baseRef" <|
    /- 8318 -/ .prim k!"CONTEXT-ELEMENT-REF" .ref k!"contextElementRefs" <|
    /- 8319 -/ .prim k!"TARGET-REF" .ref k!"targetRef" <|
    .nil) <|
  .nil

/-- `setAnyInstanceRef`, `writer/arxml_writer.py:8313-8320` -/
def setAnyInstanceRef_UPSTREAM_REFERENCE_IREF_AnyInstanceRef : WB :=
  /- 8315 -/ .wrap .always k!"UPSTREAM-REFERENCE-IREF" (
    /- 8316 -/ .prim k!"BASE-REF" .ref k!"baseRef" <|
    /- 8318 -/ .prim k!"CONTEXT-ELEMENT-REF" .ref k!"contextElementRefs" <|
    /- 8319 -/ .prim k!"TARGET-REF" .ref k!"targetRef" <|
    .nil) <|
  .nil

/-- `setAnyInstanceRef`, `writer/arxml_writer.py:8313-8320` -/
def setAnyInstanceRef_VALUE_IREF_AnyInstanceRef : WB :=
  /- 8315 -/ .wrap .always k!"VALUE-IREF" (
    /- 8316 -/ .prim k!"BASE-REF" .ref k!"baseRef" <|
    /- 8318 -/ .prim k!"CONTEXT-ELEMENT-REF" .ref k!"contextElementRefs" <|
    /- 8319 -/ .prim k!"TARGET-REF" .ref k!"targetRef" <|
    .nil) <|
  .nil

/-- `writeReferrable`, `writer/arxml_writer.py:838-842` -/
def writeReferrable_ARPackage : WB :=
  /- 839 -/ .attr k!"T" .raw k!"timestamp" <|
  /- 839 -/ .attr k!"UUID" .raw k!"uuid" <|
  /- 840 -/ .prim k!"SHORT-NAME" .raw k!"short_name" <|
  /- 842 -/ .when (.cls [k!"Referrable"]) (
    /- 855 -/ .wrap (.any [(k!"shortNameFragments", [])]) k!"SHORT-NAME-FRAGMENTS" (
      /- 857 -/ .each k!"shortNameFragments" [] .plain [⟨[], [], k!"setShortNameFragment_ShortNameFragment"⟩] .skip <|
      .nil) <|
    .nil) <|
  .nil

/-- `writeMultilanguageReferrable`, `writer/arxml_writer.py:928-931` -/
def writeMultilanguageReferrable_ARPackage : WB :=
  /- 929 -/ writeReferrable_ARPackage.app <|
  /- 931 -/ .each k!"longName" [] .plain [⟨[], [], k!"setMultiLongName_LONG_NAME_MultilanguageLongName"⟩] .skip <|
  .nil

/-- `writeIdentifiable`, `writer/arxml_writer.py:996-1004` -/
def writeIdentifiable_ARPackage : WB :=
  /- 997 -/ writeMultilanguageReferrable_ARPackage.app <|
  /- 2017 -/ .wrap (.any [(k!"annotations", [])]) k!"ANNOTATIONS" (
    /- 2019 -/ .each k!"annotations" [] .plain [⟨[], [], k!"writeIdentifiable_ARPackage_L2019"⟩] .skip <|
    .nil) <|
  /- 999 -/ .each k!"desc" [] .plain [⟨[], [], k!"setMultiLanguageOverviewParagraph_DESC_MultiLanguageOverviewParagraph"⟩] .skip <|
  /- 1000 -/ .prim k!"CATEGORY" .lit k!"category" <|
  /- 1001 -/ .each k!"introduction" [] .plain [⟨[], [], k!"writeDocumentationBlock_INTRODUCTION_DocumentationBlock"⟩] .skip <|
  /- 1002 -/ .each k!"adminData" [] .plain [⟨[], [], k!"setAdminData_AdminData"⟩] .skip <|
  /- 1004 -/ .when (.cls [k!"Identifiable"]) (
    /- 1004 -/ .each k!"variationPoint" [] .plain [⟨[], [], k!"writeVariationPoint_VariationPoint"⟩] .skip <|
    .nil) <|
  .nil

/-- `writeDataPrototype`, `writer/arxml_writer.py:2204-2206` -/
def writeDataPrototype_DataPrototype : WB :=
  /- 2205 -/ writeIdentifiable_ARPackage.app <|
  /- 2206 -/ .each k!"swDataDefProps" [] .plain [⟨[], [], k!"setSwDataDefProps_SW_DATA_DEF_PROPS_SwDataDefProps"⟩] .skip <|
  .nil

/-- `writeAutosarDataPrototype`, `writer/arxml_writer.py:4648-4650`; also `writeApplicationCompositeElementDataPrototype` -/
def writeAutosarDataPrototype_AutosarDataPrototype : WB :=
  /- 4649 -/ writeDataPrototype_DataPrototype.app <|
  /- 4650 -/ .prim k!"TYPE-TREF" .ref k!"typeTRef" <|
  .nil

/-- `setApplicationArrayElement`, `writer/arxml_writer.py:5520-5527` -/
def setApplicationArrayElement_ApplicationArrayElement : WB :=
  /- 5522 -/ .wrap .always k!"ELEMENT" (
    /- 5523 -/ writeAutosarDataPrototype_AutosarDataPrototype.app <|
    /- 5524 -/ .prim k!"ARRAY-SIZE-HANDLING" .lit k!"arraySizeHandling" <|
    /- 5525 -/ .prim k!"ARRAY-SIZE-SEMANTICS" .lit k!"arraySizeSemantics" <|
    /- 5526 -/ .prim k!"INDEX-DATA-TYPE-REF" .ref k!"indexDataTypeRef" <|
    /- 5527 -/ .prim k!"MAX-NUMBER-OF-ELEMENTS" .numerical k!"maxNumberOfElements" <|
    .nil) <|
  .nil

/-- `writeARElement`, `writer/arxml_writer.py:1006-1007`; also `writeCouplingPortSchedulerCouplingPortStructuralElement`, `writeServiceNeeds` -/
def writeARElement_System : WB :=
  /- 1007 -/ writeIdentifiable_ARPackage.app <|
  .nil

/-- `writeAutosarDataType`, `writer/arxml_writer.py:2195-2197` -/
def writeAutosarDataType_AutosarDataType : WB :=
  /- 2196 -/ writeARElement_System.app <|
  /- 2197 -/ .each k!"swDataDefProps" [] .plain [⟨[], [], k!"setSwDataDefProps_SW_DATA_DEF_PROPS_SwDataDefProps"⟩] .skip <|
  .nil

/-- `setApplicationDataType`, `writer/arxml_writer.py:2189-2190` -/
def setApplicationDataType_ApplicationDataType : WB :=
  /- 2190 -/ writeAutosarDataType_AutosarDataType.app <|
  .nil

/-- `setApplicationCompositeDataType`, `writer/arxml_writer.py:2192-2193` -/
def setApplicationCompositeDataType_ApplicationCompositeDataType : WB :=
  /- 2193 -/ setApplicationDataType_ApplicationDataType.app <|
  .nil

/-- `setApplicationCompositeElementInPortInterfaceInstanceRef`, `writer/arxml_writer.py:1125-1130` -/
def setApplicationCompositeElementInPortInterfaceInstanceRef_LEAF_ELEMENT_IREF_ApplicationCompositeElementInPortInterfaceInstanceRef : WB :=
  /- 1127 -/ .wrap .always k!"LEAF-ELEMENT-IREF" (
    /- 1128 -/ .prim k!"ROOT-DATA-PROTOTYPE-REF" .ref k!"rootDataPrototypeRef" <|
    /- 1129 -/ .prim k!"TARGET-DATA-PROTOTYPE-REF" .ref k!"targetDataPrototypeRef" <|
    .nil) <|
  .nil

/-- `writeScheduleTableEntry`, `writer/arxml_writer.py:6386-6388` -/
def writeScheduleTableEntry_ScheduleTableEntry : WB :=
  /- 6387 -/ .prim k!"DELAY" .lit k!"delay" <|
  /- 6388 -/ .prim k!"POSITION-IN-TABLE" .numerical k!"positionInTable" <|
  .nil

/-- `setApplicationEntry`, `writer/arxml_writer.py:6390-6394` -/
def setApplicationEntry_APPLICATION_ENTRY_ApplicationEntry : WB :=
  /- 6392 -/ .wrap .always k!"APPLICATION-ENTRY" (
    /- 6393 -/ writeScheduleTableEntry_ScheduleTableEntry.app <|
    /- 6394 -/ .prim k!"FRAME-TRIGGERING-REF" .ref k!"frameTriggeringRef" <|
    .nil) <|
  .nil

/-- `setServerCallPoint`, `writer/arxml_writer.py:2908-2910` -/
def setServerCallPoint_ServerCallPoint : WB :=
  /- 2909 -/ .each k!"operationIRef" [] .plain [⟨[], [], k!"setROperationInAtomicSwcInstanceRef_OPERATION_IREF_ROperationInAtomicSwcInstanceRef"⟩] .skip <|
  /- 2910 -/ .prim k!"TIMEOUT" .lit k!"timeout" <|
  .nil

/-- `setAsynchronousServerCallPoint`, `writer/arxml_writer.py:2917-2920` -/
def setAsynchronousServerCallPoint_AsynchronousServerCallPoint : WB :=
  /- 2918 -/ .wrap .always k!"ASYNCHRONOUS-SERVER-CALL-POINT" (
    /- 2919 -/ writeIdentifiable_ARPackage.app <|
    /- 2920 -/ setServerCallPoint_ServerCallPoint.app <|
    .nil) <|
  .nil

/-- `setAutosarParameterRef`, `writer/arxml_writer.py:2841-2845` -/
def setAutosarParameterRef_ACCESSED_PARAMETER_AutosarParameterRef : WB :=
  /- 2843 -/ .wrap .always k!"ACCESSED-PARAMETER" (
    /- 2844 -/ .each k!"autosarParameterIRef" [] .plain [⟨[], [], k!"setParameterInAtomicSWCTypeInstanceRef_AUTOSAR_PARAMETER_IREF_ParameterInAtomicSWCTypeInstanceRef"⟩] .skip <|
    /- 2845 -/ .prim k!"LOCAL-PARAMETER-REF" .ref k!"localParameterRef" <|
    .nil) <|
  .nil

/-- `setAutosarParameterRef`, `writer/arxml_writer.py:2841-2845` -/
def setAutosarParameterRef_AR_PARAMETER_AutosarParameterRef : WB :=
  /- 2843 -/ .wrap .always k!"AR-PARAMETER" (
    /- 2844 -/ .each k!"autosarParameterIRef" [] .plain [⟨[], [], k!"setParameterInAtomicSWCTypeInstanceRef_AUTOSAR_PARAMETER_IREF_ParameterInAtomicSWCTypeInstanceRef"⟩] .skip <|
    /- 2845 -/ .prim k!"LOCAL-PARAMETER-REF" .ref k!"localParameterRef" <|
    .nil) <|
  .nil

/-- `setAutosarParameterRef`, `writer/arxml_writer.py:2841-2845` -/
def setAutosarParameterRef_PARAMETER_INSTANCE_AutosarParameterRef : WB :=
  /- 2843 -/ .wrap .always k!"PARAMETER-INSTANCE" (
    /- 2844 -/ .each k!"autosarParameterIRef" [] .plain [⟨[], [], k!"setParameterInAtomicSWCTypeInstanceRef_AUTOSAR_PARAMETER_IREF_ParameterInAtomicSWCTypeInstanceRef"⟩] .skip <|
    /- 2845 -/ .prim k!"LOCAL-PARAMETER-REF" .ref k!"localParameterRef" <|
    .nil) <|
  .nil

/-- `setAutosarParameterRef`, `writer/arxml_writer.py:2841-2845` -/
def setAutosarParameterRef_USED_PARAMETER_ELEMENT_AutosarParameterRef : WB :=
  /- 2843 -/ .wrap .always k!"USED-PARAMETER-ELEMENT" (
    /- 2844 -/ .each k!"autosarParameterIRef" [] .plain [⟨[], [], k!"setParameterInAtomicSWCTypeInstanceRef_AUTOSAR_PARAMETER_IREF_ParameterInAtomicSWCTypeInstanceRef"⟩] .skip <|
    /- 2845 -/ .prim k!"LOCAL-PARAMETER-REF" .ref k!"localParameterRef" <|
    .nil) <|
  .nil

/-- `setAutosarVariableRef`, `writer/arxml_writer.py:2717-2722` -/
def setAutosarVariableRef_ACCESSED_VARIABLE_AutosarVariableRef : WB :=
  /- 2719 -/ .wrap .always k!"ACCESSED-VARIABLE" (
    /- 2720 -/ .attr k!"T" .raw k!"timestamp" <|
    /- 2720 -/ .attr k!"UUID" .raw k!"uuid" <|
    /- 2721 -/ .each k!"autosarVariableIRef" [] .plain [⟨[], [], k!"setVariableInAtomicSWCTypeInstanceRef_AUTOSAR_VARIABLE_IREF_VariableInAtomicSWCTypeInstanceRef"⟩] .skip <|
    /- 2722 -/ .prim k!"LOCAL-VARIABLE-REF" .ref k!"localVariableRef" <|
    .nil) <|
  .nil

/-- `setAutosarVariableRef`, `writer/arxml_writer.py:2717-2722` -/
def setAutosarVariableRef_AUTOSAR_VARIABLE_AutosarVariableRef : WB :=
  /- 2719 -/ .wrap .always k!"AUTOSAR-VARIABLE" (
    /- 2720 -/ .attr k!"T" .raw k!"timestamp" <|
    /- 2720 -/ .attr k!"UUID" .raw k!"uuid" <|
    /- 2721 -/ .each k!"autosarVariableIRef" [] .plain [⟨[], [], k!"setVariableInAtomicSWCTypeInstanceRef_AUTOSAR_VARIABLE_IREF_VariableInAtomicSWCTypeInstanceRef"⟩] .skip <|
    /- 2722 -/ .prim k!"LOCAL-VARIABLE-REF" .ref k!"localVariableRef" <|
    .nil) <|
  .nil

/-- `setAutosarVariableRef`, `writer/arxml_writer.py:2717-2722` -/
def setAutosarVariableRef_NV_RAM_BLOCK_ELEMENT_AutosarVariableRef : WB :=
  /- 2719 -/ .wrap .always k!"NV-RAM-BLOCK-ELEMENT" (
    /- 2720 -/ .attr k!"T" .raw k!"timestamp" <|
    /- 2720 -/ .attr k!"UUID" .raw k!"uuid" <|
    /- 2721 -/ .each k!"autosarVariableIRef" [] .plain [⟨[], [], k!"setVariableInAtomicSWCTypeInstanceRef_AUTOSAR_VARIABLE_IREF_VariableInAtomicSWCTypeInstanceRef"⟩] .skip <|
    /- 2722 -/ .prim k!"LOCAL-VARIABLE-REF" .ref k!"localVariableRef" <|
    .nil) <|
  .nil

/-- `setAutosarVariableRef`, `writer/arxml_writer.py:2717-2722` -/
def setAutosarVariableRef_READ_NV_DATA_AutosarVariableRef : WB :=
  /- 2719 -/ .wrap .always k!"READ-NV-DATA" (
    /- 2720 -/ .attr k!"T" .raw k!"timestamp" <|
    /- 2720 -/ .attr k!"UUID" .raw k!"uuid" <|
    /- 2721 -/ .each k!"autosarVariableIRef" [] .plain [⟨[], [], k!"setVariableInAtomicSWCTypeInstanceRef_AUTOSAR_VARIABLE_IREF_VariableInAtomicSWCTypeInstanceRef"⟩] .skip <|
    /- 2722 -/ .prim k!"LOCAL-VARIABLE-REF" .ref k!"localVariableRef" <|
    .nil) <|
  .nil

/-- `setAutosarVariableRef`, `writer/arxml_writer.py:2717-2722` -/
def setAutosarVariableRef_USED_DATA_ELEMENT_AutosarVariableRef : WB :=
  /- 2719 -/ .wrap .always k!"USED-DATA-ELEMENT" (
    /- 2720 -/ .attr k!"T" .raw k!"timestamp" <|
    /- 2720 -/ .attr k!"UUID" .raw k!"uuid" <|
    /- 2721 -/ .each k!"autosarVariableIRef" [] .plain [⟨[], [], k!"setVariableInAtomicSWCTypeInstanceRef_AUTOSAR_VARIABLE_IREF_VariableInAtomicSWCTypeInstanceRef"⟩] .skip <|
    /- 2722 -/ .prim k!"LOCAL-VARIABLE-REF" .ref k!"localVariableRef" <|
    .nil) <|
  .nil

/-- `setAutosarVariableRef`, `writer/arxml_writer.py:2717-2722` -/
def setAutosarVariableRef_VARIABLE_INSTANCE_AutosarVariableRef : WB :=
  /- 2719 -/ .wrap .always k!"VARIABLE-INSTANCE" (
    /- 2720 -/ .attr k!"T" .raw k!"timestamp" <|
    /- 2720 -/ .attr k!"UUID" .raw k!"uuid" <|
    /- 2721 -/ .each k!"autosarVariableIRef" [] .plain [⟨[], [], k!"setVariableInAtomicSWCTypeInstanceRef_AUTOSAR_VARIABLE_IREF_VariableInAtomicSWCTypeInstanceRef"⟩] .skip <|
    /- 2722 -/ .prim k!"LOCAL-VARIABLE-REF" .ref k!"localVariableRef" <|
    .nil) <|
  .nil

/-- `setAutosarVariableRef`, `writer/arxml_writer.py:2717-2722` -/
def setAutosarVariableRef_WRITTEN_NV_DATA_AutosarVariableRef : WB :=
  /- 2719 -/ .wrap .always k!"WRITTEN-NV-DATA" (
    /- 2720 -/ .attr k!"T" .raw k!"timestamp" <|
    /- 2720 -/ .attr k!"UUID" .raw k!"uuid" <|
    /- 2721 -/ .each k!"autosarVariableIRef" [] .plain [⟨[], [], k!"setVariableInAtomicSWCTypeInstanceRef_AUTOSAR_VARIABLE_IREF_VariableInAtomicSWCTypeInstanceRef"⟩] .skip <|
    /- 2722 -/ .prim k!"LOCAL-VARIABLE-REF" .ref k!"localVariableRef" <|
    .nil) <|
  .nil

/-- `setAutosarVariableRef`, `writer/arxml_writer.py:2717-2722` -/
def setAutosarVariableRef_WRITTEN_READ_NV_DATA_AutosarVariableRef : WB :=
  /- 2719 -/ .wrap .always k!"WRITTEN-READ-NV-DATA" (
    /- 2720 -/ .attr k!"T" .raw k!"timestamp" <|
    /- 2720 -/ .attr k!"UUID" .raw k!"uuid" <|
    /- 2721 -/ .each k!"autosarVariableIRef" [] .plain [⟨[], [], k!"setVariableInAtomicSWCTypeInstanceRef_AUTOSAR_VARIABLE_IREF_VariableInAtomicSWCTypeInstanceRef"⟩] .skip <|
    /- 2722 -/ .prim k!"LOCAL-VARIABLE-REF" .ref k!"localVariableRef" <|
    .nil) <|
  .nil

/-- `writeActivationReasons`, `writer/arxml_writer.py:4719-4727` -/
def writeActivationReasons_ExecutableEntity : WB :=
  /- 4722 -/ .wrap (.any [(k!"activationReasons", [])]) k!"ACTIVATION-REASONS" (
    /- 4725 -/ .each k!"activationReasons" [] .plain [⟨[(false, [k!"ExecutableEntityActivationReason"])], [], k!"writeActivationReasons_ExecutableEntity_L4725"⟩] .unsupported <|
    .nil) <|
  .nil

/-- `writeCanEnterRefs`, `writer/arxml_writer.py:4733-4738` -/
def writeCanEnterRefs_ExecutableEntity : WB :=
  /- 4736 -/ .wrap (.any [(k!"canEnterRefs", [])]) k!"CAN-ENTER-EXCLUSIVE-AREA-REFS" (
    /- 4738 -/ .prim k!"CAN-ENTER-EXCLUSIVE-AREA-REF" .ref k!"canEnterRefs" <|
    .nil) <|
  .nil

/-- `writeExclusiveAreaNestingOrderRefs`, `writer/arxml_writer.py:4740-4745` -/
def writeExclusiveAreaNestingOrderRefs_ExecutableEntity : WB :=
  /- 4743 -/ .wrap (.any [(k!"exclusiveAreaNestingOrderRefs", [])]) k!"EXCLUSIVE-AREA-NESTING-ORDER-REFS" (
    /- 4745 -/ .prim k!"EXCLUSIVE-AREA-NESTING-ORDER-REF" .ref k!"exclusiveAreaNestingOrderRefs" <|
    .nil) <|
  .nil

/-- `writeRunsInsideRefs`, `writer/arxml_writer.py:4747-4752` -/
def writeRunsInsideRefs_ExecutableEntity : WB :=
  /- 4750 -/ .wrap (.any [(k!"runsInsideRefs", [])]) k!"RUNS-INSIDE-EXCLUSIVE-AREA-REFS" (
    /- 4752 -/ .prim k!"RUNS-INSIDE-EXCLUSIVE-AREA-REF" .ref k!"runsInsideRefs" <|
    .nil) <|
  .nil

/-- `writeExecutableEntity`, `writer/arxml_writer.py:4754-4762` -/
def writeExecutableEntity_ExecutableEntity : WB :=
  /- 4755 -/ writeIdentifiable_ARPackage.app <|
  /- 4756 -/ writeActivationReasons_ExecutableEntity.app <|
  /- 4757 -/ writeCanEnterRefs_ExecutableEntity.app <|
  /- 4758 -/ writeExclusiveAreaNestingOrderRefs_ExecutableEntity.app <|
  /- 4759 -/ .prim k!"MINIMUM-START-INTERVAL" .lit k!"minimumStartInterval" <|
  /- 4760 -/ .prim k!"REENTRANCY-LEVEL" .lit k!"reentrancyLevel" <|
  /- 4761 -/ writeRunsInsideRefs_ExecutableEntity.app <|
  /- 4762 -/ .prim k!"SW-ADDR-METHOD-REF" .ref k!"swAddrMethodRef" <|
  .nil

/-- `writeBswModuleEntityAccessedModeGroups`, `writer/arxml_writer.py:4772-4778` -/
def writeBswModuleEntityAccessedModeGroups_BswModuleEntity : WB :=
  /- 4775 -/ .wrap (.any [(k!"accessedModeGroupRefs", [])]) k!"ACCESSED-MODE-GROUPS" (
    /- 4778 -/ .oprim k!"MODE-DECLARATION-GROUP-PROTOTYPE-REF-CONDITIONAL" k!"MODE-DECLARATION-GROUP-PROTOTYPE-REF" .ref k!"accessedModeGroupRefs" <|
    .nil) <|
  .nil

/-- `writeBswModuleEntityActivationPointRefs`, `writer/arxml_writer.py:4814-4820` -/
def writeBswModuleEntityActivationPointRefs_BswModuleEntity : WB :=
  /- 4817 -/ .wrap (.any [(k!"activationPointRefs", [])]) k!"ACTIVATION-POINTS" (
    /- 4820 -/ .oprim k!"BSW-INTERNAL-TRIGGERING-POINT-REF-CONDITIONAL" k!"BSW-INTERNAL-TRIGGERING-POINT-REF" .ref k!"activationPointRefs" <|
    .nil) <|
  .nil

/-- `writeBswModuleEntityCallPoints`, `writer/arxml_writer.py:4835-4845` -/
def writeBswModuleEntityCallPoints_BswModuleEntity : WB :=
  /- 4838 -/ .wrap (.any [(k!"callPoints", [])]) k!"CALL-POINTS" (
    /- 4841 -/ .each k!"callPoints" [] .plain [⟨[(false, [k!"BswAsynchronousServerCallPoint"])], [], k!"writeBswAsynchronousServerCallPoint_BswAsynchronousServerCallPoint"⟩,
      ⟨[(false, [k!"BswModuleCallPoint"])], [k!"BswAsynchronousServerCallPoint"], k!"writeBswSynchronousServerCallPoint_BswSynchronousServerCallPoint"⟩] .unsupported <|
    .nil) <|
  .nil

/-- `writeBswModuleEntityDataSendPoints`, `writer/arxml_writer.py:4786-4794` -/
def writeBswModuleEntityDataSendPoints_BswModuleEntity : WB :=
  /- 4789 -/ .wrap (.any [(k!"dataSendPoints", [])]) k!"DATA-SEND-POINTS" (
    /- 4792 -/ .each k!"dataSendPoints" [] .plain [⟨[(false, [k!"BswVariableAccess"])], [], k!"writeBswVariableAccess_BswVariableAccess"⟩] .unsupported <|
    .nil) <|
  .nil

/-- `writeBswModuleEntityDataReceivePoints`, `writer/arxml_writer.py:4796-4804` -/
def writeBswModuleEntityDataReceivePoints_BswModuleEntity : WB :=
  /- 4799 -/ .wrap (.any [(k!"dataReceivePoints", [])]) k!"DATA-RECEIVE-POINTS" (
    /- 4802 -/ .each k!"dataReceivePoints" [] .plain [⟨[(false, [k!"BswVariableAccess"])], [], k!"writeBswVariableAccess_BswVariableAccess"⟩] .unsupported <|
    .nil) <|
  .nil

/-- `writeBswModuleEntityManagedModeGroups`, `writer/arxml_writer.py:4764-4770` -/
def writeBswModuleEntityManagedModeGroups_BswModuleEntity : WB :=
  /- 4767 -/ .wrap (.any [(k!"managedModeGroupRefs", [])]) k!"MANAGED-MODE-GROUPS" (
    /- 4770 -/ .oprim k!"MODE-DECLARATION-GROUP-PROTOTYPE-REF-CONDITIONAL" k!"MODE-DECLARATION-GROUP-PROTOTYPE-REF" .ref k!"managedModeGroupRefs" <|
    .nil) <|
  .nil

/-- `writeBswModuleEntityIssuedTriggerRefs`, `writer/arxml_writer.py:4806-4812` -/
def writeBswModuleEntityIssuedTriggerRefs_BswModuleEntity : WB :=
  /- 4809 -/ .wrap (.any [(k!"issuedTriggerRefs", [])]) k!"ISSUED-TRIGGERS" (
    /- 4812 -/ .oprim k!"TRIGGER-REF-CONDITIONAL" k!"TRIGGER-REF" .ref k!"issuedTriggerRefs" <|
    .nil) <|
  .nil

/-- `writeBswModuleEntity`, `writer/arxml_writer.py:4847-4857` -/
def writeBswModuleEntity_BswModuleEntity : WB :=
  /- 4848 -/ writeExecutableEntity_ExecutableEntity.app <|
  /- 4849 -/ writeBswModuleEntityAccessedModeGroups_BswModuleEntity.app <|
  /- 4850 -/ writeBswModuleEntityActivationPointRefs_BswModuleEntity.app <|
  /- 4851 -/ writeBswModuleEntityCallPoints_BswModuleEntity.app <|
  /- 4852 -/ writeBswModuleEntityDataSendPoints_BswModuleEntity.app <|
  /- 4853 -/ writeBswModuleEntityDataReceivePoints_BswModuleEntity.app <|
  /- 4854 -/ .prim k!"IMPLEMENTED-ENTRY-REF" .ref k!"implementedEntryRef" <|
  /- 4855 -/ .prim k!"SCHEDULER-NAME-PREFIX-REF" .ref k!"schedulerNamePrefixRef" <|
  /- 4856 -/ writeBswModuleEntityManagedModeGroups_BswModuleEntity.app <|
  /- 4857 -/ writeBswModuleEntityIssuedTriggerRefs_BswModuleEntity.app <|
  .nil

/-- `setBswInterruptEntity`, `writer/arxml_writer.py:4869-4874` -/
def setBswInterruptEntity_BswInterruptEntity : WB :=
  /- 4871 -/ .wrap .always k!"BSW-INTERRUPT-ENTITY" (
    /- 4872 -/ writeBswModuleEntity_BswModuleEntity.app <|
    /- 4873 -/ .prim k!"INTERRUPT-CATEGORY" .lit k!"interruptCategory" <|
    /- 4874 -/ .prim k!"INTERRUPT-SOURCE" .lit k!"interruptSource" <|
    .nil) <|
  .nil

/-- `setBswModeSenderPolicy`, `writer/arxml_writer.py:5002-5007` -/
def setBswModeSenderPolicy_BswModeSenderPolicy : WB :=
  /- 5003 -/ .wrap .always k!"BSW-MODE-SENDER-POLICY" (
    /- 5004 -/ .each k!"ackRequest" [] .plain [⟨[], [], k!"setBswModeSwitchAckRequest_ACK_REQUEST_BswModeSwitchAckRequest"⟩] .skip <|
    /- 5005 -/ .prim k!"ENHANCED-MODE-API" .lit k!"enhancedModeApi" <|
    /- 5006 -/ .prim k!"PROVIDED-MODE-GROUP-REF" .ref k!"providedModeGroupRef" <|
    /- 5007 -/ .prim k!"QUEUE-LENGTH" .numerical k!"queueLength" <|
    .nil) <|
  .nil

/-- `setBswModeSwitchAckRequest`, `writer/arxml_writer.py:5009-5012` -/
def setBswModeSwitchAckRequest_ACK_REQUEST_BswModeSwitchAckRequest : WB :=
  /- 5011 -/ .wrap .always k!"ACK-REQUEST" (
    /- 5012 -/ .prim k!"TIMEOUT" .lit k!"timeout" <|
    .nil) <|
  .nil

/-- `setBufferProperties`, `writer/arxml_writer.py:9235-9239` -/
def setBufferProperties_BUFFER_PROPERTIES_BufferProperties : WB :=
  /- 9237 -/ .wrap .always k!"BUFFER-PROPERTIES" (
    /- 9238 -/ .prim k!"HEADER-LENGTH" .numerical k!"headerLength" <|
    /- 9239 -/ .prim k!"IN-PLACE" .lit k!"inPlace" <|
    .nil) <|
  .nil

/-- `setCanClusterBusOffRecovery`, `writer/arxml_writer.py:6816-6821` -/
def setCanClusterBusOffRecovery_BUS_OFF_RECOVERY_CanClusterBusOffRecovery : WB :=
  /- 6818 -/ .wrap .always k!"BUS-OFF-RECOVERY" (
    /- 6819 -/ .prim k!"BOR-COUNTER-L-1-TO-L-2" .numerical k!"borCounterL1ToL2" <|
    /- 6820 -/ .prim k!"BOR-TIME-L-1" .lit k!"borTimeL1" <|
    /- 6821 -/ .prim k!"BOR-TIME-L-2" .lit k!"borTimeL2" <|
    .nil) <|
  .nil

/-- `setCanControllerFdConfigurationRequirements`, `writer/arxml_writer.py:7548-7559` -/
def setCanControllerFdConfigurationRequirements_CAN_CONTROLLER_FD_REQUIREMENTS_CanControllerFdConfigurationRequirements : WB :=
  /- 7550 -/ .wrap .always k!"CAN-CONTROLLER-FD-REQUIREMENTS" (
    /- 7551 -/ .prim k!"MAX-NUMBER-OF-TIME-QUANTA-PER-BIT" .numerical k!"maxNumberOfTimeQuantaPerBit" <|
    /- 7552 -/ .prim k!"MAX-SAMPLE-POINT" .lit k!"maxSamplePoint" <|
    /- 7553 -/ .prim k!"MAX-SYNC-JUMP-WIDTH" .lit k!"maxSyncJumpWidth" <|
    /- 7554 -/ .prim k!"MAX-TRCV-DELAY-COMPENSATION-OFFSET" .lit k!"maxTrcvDelayCompensationOffset" <|
    /- 7555 -/ .prim k!"MIN-NUMBER-OF-TIME-QUANTA-PER-BIT" .numerical k!"minNumberOfTimeQuantaPerBit" <|
    /- 7556 -/ .prim k!"MIN-SAMPLE-POINT" .lit k!"minSamplePoint" <|
    /- 7557 -/ .prim k!"MIN-SYNC-JUMP-WIDTH" .lit k!"minSyncJumpWidth" <|
    /- 7558 -/ .prim k!"MIN-TRCV-DELAY-COMPENSATION-OFFSET" .lit k!"minTrcvDelayCompensationOffset" <|
    /- 7559 -/ .prim k!"TX-BIT-RATE-SWITCH" .lit k!"txBitRateSwitch" <|
    .nil) <|
  .nil

/-- `setCanControllerFdConfiguration`, `writer/arxml_writer.py:7518-7527` -/
def setCanControllerFdConfiguration_CAN_CONTROLLER_FD_CONFIGURATION_CanControllerFdConfiguration : WB :=
  /- 7520 -/ .wrap .always k!"CAN-CONTROLLER-FD-CONFIGURATION" (
    /- 7521 -/ .prim k!"PADDING-VALUE" .numerical k!"paddingValue" <|
    /- 7522 -/ .prim k!"PROP-SEG" .numerical k!"propSeg" <|
    /- 7523 -/ .prim k!"SSP-OFFSET" .numerical k!"sspOffset" <|
    /- 7524 -/ .prim k!"SYNC-JUMP-WIDTH" .numerical k!"syncJumpWidth" <|
    /- 7525 -/ .prim k!"TIME-SEG1" .numerical k!"timeSeg1" <|
    /- 7526 -/ .prim k!"TIME-SEG2" .numerical k!"timeSeg2" <|
    /- 7527 -/ .prim k!"TX-BIT-RATE-SWITCH" .lit k!"txBitRateSwitch" <|
    .nil) <|
  .nil

/-- `setCanControllerXlConfigurationRequirements`, `writer/arxml_writer.py:7575-7593` -/
def setCanControllerXlConfigurationRequirements_CAN_CONTROLLER_XL_REQUIREMENTS_CanControllerXlConfigurationRequirements : WB :=
  /- 7577 -/ .wrap .always k!"CAN-CONTROLLER-XL-REQUIREMENTS" (
    /- 7578 -/ .prim k!"ERROR-SIGNALING-ENABLED" .lit k!"errorSignalingEnabled" <|
    /- 7579 -/ .prim k!"MAX-NUMBER-OF-TIME-QUANTA-PER-BIT" .numerical k!"maxNumberOfTimeQuantaPerBit" <|
    /- 7580 -/ .prim k!"MAX-PWM-L" .numerical k!"maxPwmL" <|
    /- 7581 -/ .prim k!"MAX-PWM-O" .numerical k!"maxPwmO" <|
    /- 7582 -/ .prim k!"MAX-PWM-S" .numerical k!"maxPwmS" <|
    /- 7583 -/ .prim k!"MAX-SAMPLE-POINT" .lit k!"maxSamplePoint" <|
    /- 7584 -/ .prim k!"MAX-SYNC-JUMP-WIDTH" .lit k!"maxSyncJumpWidth" <|
    /- 7585 -/ .prim k!"MAX-TRCV-DELAY-COMPENSATION-OFFSET" .lit k!"maxTrcvDelayCompensationOffset" <|
    /- 7586 -/ .prim k!"MIN-NUMBER-OF-TIME-QUANTA-PER-BIT" .numerical k!"minNumberOfTimeQuantaPerBit" <|
    /- 7587 -/ .prim k!"MIN-PWM-L" .numerical k!"minPwmL" <|
    /- 7588 -/ .prim k!"MIN-PWM-O" .numerical k!"minPwmO" <|
    /- 7589 -/ .prim k!"MIN-PWM-S" .numerical k!"minPwmS" <|
    /- 7590 -/ .prim k!"MIN-SAMPLE-POINT" .lit k!"minSamplePoint" <|
    /- 7591 -/ .prim k!"MIN-SYNC-JUMP-WIDTH" .lit k!"minSyncJumpWidth" <|
    /- 7592 -/ .prim k!"MIN-TRCV-DELAY-COMPENSATION-OFFSET" .lit k!"minTrcvDelayCompensationOffset" <|
    /- 7593 -/ .prim k!"TRCV-PWM-MODE-ENABLED" .lit k!"trcvPwmModeEnabled" <|
    .nil) <|
  .nil

/-- `setCanControllerXlConfiguration`, `writer/arxml_writer.py:7561-7573` -/
def setCanControllerXlConfiguration_CAN_CONTROLLER_XL_CONFIGURATION_CanControllerXlConfiguration : WB :=
  /- 7563 -/ .wrap .always k!"CAN-CONTROLLER-XL-CONFIGURATION" (
    /- 7564 -/ .prim k!"ERROR-SIGNALING-ENABLED" .lit k!"errorSignalingEnabled" <|
    /- 7565 -/ .prim k!"PROP-SEG" .numerical k!"propSeg" <|
    /- 7566 -/ .prim k!"PWM-L" .numerical k!"pwmL" <|
    /- 7567 -/ .prim k!"PWM-O" .numerical k!"pwmO" <|
    /- 7568 -/ .prim k!"PWM-S" .numerical k!"pwmS" <|
    /- 7569 -/ .prim k!"SSP-OFFSET" .numerical k!"sspOffset" <|
    /- 7570 -/ .prim k!"SYNC-JUMP-WIDTH" .numerical k!"syncJumpWidth" <|
    /- 7571 -/ .prim k!"TIME-SEG1" .numerical k!"timeSeg1" <|
    /- 7572 -/ .prim k!"TIME-SEG2" .numerical k!"timeSeg2" <|
    /- 7573 -/ .prim k!"TRCV-PWM-MODE-ENABLED" .lit k!"trcvPwmModeEnabled" <|
    .nil) <|
  .nil

/-- `setCaption`, `writer/arxml_writer.py:933-937` -/
def setCaption_FORMULA_CAPTION_Caption : WB :=
  /- 935 -/ .wrap .always k!"FORMULA-CAPTION" (
    /- 936 -/ writeMultilanguageReferrable_ARPackage.app <|
    /- 937 -/ .each k!"desc" [] .plain [⟨[], [], k!"setMultiLanguageOverviewParagraph_DESC_MultiLanguageOverviewParagraph"⟩] .skip <|
    .nil) <|
  .nil

/-- `setChildElementJ1939NodeName`, `writer/arxml_writer.py:702-713` -/
def setChildElementJ1939NodeName_NODE_NAME_J1939NodeName : WB :=
  /- 704 -/ .wrap .always k!"NODE-NAME" (
    /- 705 -/ .prim k!"ARBITRARY-ADDRESS-CAPABLE" .lit k!"arbitraryAddressCapable" <|
    /- 706 -/ .prim k!"ECU-INSTANCE" .numerical k!"ecuInstance" <|
    /- 707 -/ .prim k!"FUNCTION" .numerical k!"function" <|
    /- 708 -/ .prim k!"FUNCTION-INSTANCE" .numerical k!"functionInstance" <|
    /- 709 -/ .prim k!"IDENTITIY-NUMBER" .numerical k!"identitiyNumber" <|
    /- 710 -/ .prim k!"INDUSTRY-GROUP" .numerical k!"industryGroup" <|
    /- 711 -/ .prim k!"MANUFACTURER-CODE" .numerical k!"manufacturerCode" <|
    /- 712 -/ .prim k!"VEHICLE-SYSTEM" .numerical k!"vehicleSystem" <|
    /- 713 -/ .prim k!"VEHICLE-SYSTEM-INSTANCE" .numerical k!"vehicleSystemInstance" <|
    .nil) <|
  .nil

/-- `setChildElementRxIdentifierRange`, `writer/arxml_writer.py:696-700` -/
def setChildElementRxIdentifierRange_NM_RANGE_CONFIG_RxIdentifierRange : WB :=
  /- 698 -/ .wrap .always k!"NM-RANGE-CONFIG" (
    /- 699 -/ .prim k!"LOWER-CAN-ID" .numerical k!"lowerCanId" <|
    /- 700 -/ .prim k!"UPPER-CAN-ID" .numerical k!"upperCanId" <|
    .nil) <|
  .nil

/-- `setChildElementRxIdentifierRange`, `writer/arxml_writer.py:696-700` -/
def setChildElementRxIdentifierRange_RX_IDENTIFIER_RANGE_RxIdentifierRange : WB :=
  /- 698 -/ .wrap .always k!"RX-IDENTIFIER-RANGE" (
    /- 699 -/ .prim k!"LOWER-CAN-ID" .numerical k!"lowerCanId" <|
    /- 700 -/ .prim k!"UPPER-CAN-ID" .numerical k!"upperCanId" <|
    .nil) <|
  .nil

/-- `setComponentInSystemInstanceRef`, `writer/arxml_writer.py:2819-2825` -/
def setComponentInSystemInstanceRef_COMPONENT_IREF_ComponentInSystemInstanceRef : WB :=
  /- 2821 -/ .wrap .always k!"COMPONENT-IREF" (
    /- 2822 -/ .attr k!"T" .raw k!"timestamp" <|
    /- 2822 -/ .attr k!"UUID" .raw k!"uuid" <|
    /- 2823 -/ .prim k!"BASE-REF" .ref k!"baseRef" <|
    /- 2824 -/ .prim k!"CONTEXT-COMPOSITION-REF" .ref k!"contextCompositionRef" <|
    /- 2825 -/ .prim k!"TARGET-COMPONENT-REF" .ref k!"targetComponentRef" <|
    .nil) <|
  .nil

/-- `setCompuConst`, `writer/arxml_writer.py:2308-2312` -/
def setCompuConst_COMPU_DEFAULT_VALUE_CompuConst : WB :=
  /- 2310 -/ .wrap .always k!"COMPU-DEFAULT-VALUE" (
    /- 2311 -/ .attr k!"T" .raw k!"timestamp" <|
    /- 2311 -/ .attr k!"UUID" .raw k!"uuid" <|
    /- 2312 -/ .each k!"compuConstContentType" [] .plain [⟨[(false, [k!"CompuConstFormulaContent"])], [], k!"setCompuConst_COMPU_DEFAULT_VALUE_CompuConst_L2282"⟩,
      ⟨[(false, [k!"CompuConstNumericContent"])], [k!"CompuConstFormulaContent"], k!"setCompuConst_COMPU_DEFAULT_VALUE_CompuConst_L2284"⟩,
      ⟨[(false, [k!"CompuConstTextContent"])], [k!"CompuConstFormulaContent", k!"CompuConstNumericContent"], k!"setCompuConst_COMPU_DEFAULT_VALUE_CompuConst_L2286"⟩] .unsupported <|
    .nil) <|
  .nil

/-- `setCompuConst`, `writer/arxml_writer.py:2308-2312` (the block at line 2282) -/
def setCompuConst_COMPU_DEFAULT_VALUE_CompuConst_L2282 : WB :=
  /- 2282 -/ .prim k!"VF" .lit k!"vf" <|
  .nil

/-- `setCompuConst`, `writer/arxml_writer.py:2308-2312` (the block at line 2284) -/
def setCompuConst_COMPU_DEFAULT_VALUE_CompuConst_L2284 : WB :=
  /- 2284 -/ .prim k!"V" .numerical k!"v" <|
  .nil

/-- `setCompuConst`, `writer/arxml_writer.py:2308-2312` (the block at line 2286) -/
def setCompuConst_COMPU_DEFAULT_VALUE_CompuConst_L2286 : WB :=
  /- 2286 -/ .prim k!"VT" .lit k!"vt" <|
  .nil

/-- `setCompuScales`, `writer/arxml_writer.py:2302-2306` -/
def setCompuScales_CompuScales : WB :=
  /- 2304 -/ .wrap .always k!"COMPU-SCALES" (
    /- 2306 -/ .each k!"compuScales" [] .plain [⟨[], [], k!"writeCompuScale_COMPU_SCALE_CompuScale"⟩] .skip <|
    .nil) <|
  .nil

/-- `setCompu`, `writer/arxml_writer.py:2314-2319` -/
def setCompu_COMPU_INTERNAL_TO_PHYS_Compu : WB :=
  /- 2316 -/ .wrap .always k!"COMPU-INTERNAL-TO-PHYS" (
    /- 2317 -/ .attr k!"T" .raw k!"timestamp" <|
    /- 2317 -/ .attr k!"UUID" .raw k!"uuid" <|
    /- 2318 -/ .each k!"compuContent" [] .plain [⟨[], [], k!"setCompuScales_CompuScales"⟩] .skip <|
    /- 2319 -/ .each k!"compuDefaultValue" [] .plain [⟨[], [], k!"setCompuConst_COMPU_DEFAULT_VALUE_CompuConst"⟩] .skip <|
    .nil) <|
  .nil

/-- `setCompu`, `writer/arxml_writer.py:2314-2319` -/
def setCompu_COMPU_PHYS_TO_INTERNAL_Compu : WB :=
  /- 2316 -/ .wrap .always k!"COMPU-PHYS-TO-INTERNAL" (
    /- 2317 -/ .attr k!"T" .raw k!"timestamp" <|
    /- 2317 -/ .attr k!"UUID" .raw k!"uuid" <|
    /- 2318 -/ .each k!"compuContent" [] .plain [⟨[], [], k!"setCompuScales_CompuScales"⟩] .skip <|
    /- 2319 -/ .each k!"compuDefaultValue" [] .plain [⟨[], [], k!"setCompuConst_COMPU_DEFAULT_VALUE_CompuConst"⟩] .skip <|
    .nil) <|
  .nil

/-- `writeValueSpecification`, `writer/arxml_writer.py:1203-1206` -/
def writeValueSpecification_ValueSpecification : WB :=
  /- 1205 -/ .attr k!"T" .raw k!"timestamp" <|
  /- 1205 -/ .attr k!"UUID" .raw k!"uuid" <|
  /- 1206 -/ .prim k!"SHORT-LABEL" .lit k!"shortLabel" <|
  .nil

/-- `setConstantReference`, `writer/arxml_writer.py:1244-1247` -/
def setConstantReference_ConstantReference : WB :=
  /- 1245 -/ .wrap .always k!"CONSTANT-REFERENCE" (
    /- 1246 -/ writeValueSpecification_ValueSpecification.app <|
    /- 1247 -/ .prim k!"CONSTANT-REF" .ref k!"constantRef" <|
    .nil) <|
  .nil

/-- `writeCouplingPortDetailsCouplingPortStructuralElements`, `writer/arxml_writer.py:7647-7657` -/
def writeCouplingPortDetailsCouplingPortStructuralElements_CouplingPortDetails : WB :=
  /- 7650 -/ .wrap (.any [(k!"couplingPortStructuralElements", [])]) k!"COUPLING-PORT-STRUCTURAL-ELEMENTS" (
    /- 7653 -/ .each k!"couplingPortStructuralElements" [] .plain [⟨[(false, [k!"CouplingPortFifo"])], [], k!"writeCouplingPortFifo_CouplingPortFifo"⟩,
      ⟨[(false, [k!"CouplingPortScheduler"])], [k!"CouplingPortFifo"], k!"writeCouplingPortScheduler_CouplingPortScheduler"⟩] .unsupported <|
    .nil) <|
  .nil

/-- `writeCouplingPortDetailsEthernetPriorityRegenerations`, `writer/arxml_writer.py:7666-7674` -/
def writeCouplingPortDetailsEthernetPriorityRegenerations_CouplingPortDetails : WB :=
  /- 7669 -/ .wrap (.any [(k!"ethernetPriorityRegenerations", [])]) k!"ETHERNET-PRIORITY-REGENERATIONS" (
    /- 7672 -/ .each k!"ethernetPriorityRegenerations" [] .plain [⟨[(false, [k!"EthernetPriorityRegeneration"])], [], k!"writeEthernetPriorityRegeneration_EthernetPriorityRegeneration"⟩] .unsupported <|
    .nil) <|
  .nil

/-- `setCouplingPortDetails`, `writer/arxml_writer.py:7676-7681` -/
def setCouplingPortDetails_COUPLING_PORT_DETAILS_CouplingPortDetails : WB :=
  /- 7678 -/ .wrap .always k!"COUPLING-PORT-DETAILS" (
    /- 7679 -/ writeCouplingPortDetailsCouplingPortStructuralElements_CouplingPortDetails.app <|
    /- 7680 -/ writeCouplingPortDetailsEthernetPriorityRegenerations_CouplingPortDetails.app <|
    /- 7681 -/ .prim k!"LAST-EGRESS-SCHEDULER-REF" .ref k!"lastEgressSchedulerRef" <|
    .nil) <|
  .nil

/-- `setCyclicTiming`, `writer/arxml_writer.py:9113-9117` -/
def setCyclicTiming_CYCLIC_TIMING_CyclicTiming : WB :=
  /- 9115 -/ .wrap .always k!"CYCLIC-TIMING" (
    /- 9116 -/ .each k!"timeOffset" [] .plain [⟨[], [], k!"setTimeRangeType_TIME_OFFSET_TimeRangeType"⟩] .skip <|
    /- 9117 -/ .each k!"timePeriod" [] .plain [⟨[], [], k!"setTimeRangeType_TIME_PERIOD_TimeRangeType"⟩] .skip <|
    .nil) <|
  .nil

/-- `setDataFilter`, `writer/arxml_writer.py:9087-9092` -/
def setDataFilter_DATA_FILTER_DataFilter : WB :=
  /- 9089 -/ .wrap .always k!"DATA-FILTER" (
    /- 9090 -/ .prim k!"DATA-FILTER-TYPE" .lit k!"dataFilterType" <|
    /- 9091 -/ .prim k!"MASK" .numerical k!"mask" <|
    /- 9092 -/ .prim k!"X" .numerical k!"x" <|
    .nil) <|
  .nil

/-- `setDataFilter`, `writer/arxml_writer.py:9087-9092` -/
def setDataFilter_FILTER_DataFilter : WB :=
  /- 9089 -/ .wrap .always k!"FILTER" (
    /- 9090 -/ .prim k!"DATA-FILTER-TYPE" .lit k!"dataFilterType" <|
    /- 9091 -/ .prim k!"MASK" .numerical k!"mask" <|
    /- 9092 -/ .prim k!"X" .numerical k!"x" <|
    .nil) <|
  .nil

/-- `setDataPrototypeMapping`, `writer/arxml_writer.py:8071-8086` -/
def setDataPrototypeMapping_DataPrototypeMapping : WB :=
  /- 8072 -/ .wrap .always k!"DATA-PROTOTYPE-MAPPING" (
    /- 8073 -/ .prim k!"FIRST-DATA-PROTOTYPE-REF" .ref k!"firstDataPrototypeRef" <|
    /- 8074 -/ .prim k!"FIRST-TO-SECOND-DATA-TRANSFORMATION-REF" .ref k!"firstToSecondDataTransformationRef" <|
    /- 8075 -/ .prim k!"SECOND-DATA-PROTOTYPE-REF" .ref k!"secondDataPrototypeRef" <|
    /- 8076 -/ .prim k!"SECOND-TO-FIRST-DATA-TRANSFORMATION-REF" .ref k!"secondToFirstDataTransformationRef" <|
    /- 8079 -/ .wrap (.any [(k!"subElementMappings", [])]) k!"SUB-ELEMENT-MAPPINGS" (
      /- 8081 -/ .each k!"subElementMappings" [] .plain [⟨[], [], k!"setSubElementMapping_SubElementMapping"⟩] .skip <|
      .nil) <|
    /- 8084 -/ .wrap (.any [(k!"textTableMappings", [])]) k!"TEXT-TABLE-MAPPINGS" (
      /- 8086 -/ .each k!"textTableMappings" [] .plain [⟨[], [], k!"setTextTableMapping_TextTableMapping"⟩] .skip <|
      .nil) <|
    .nil) <|
  .nil

/-- `setDefItem`, `writer/arxml_writer.py:1880-1885` -/
def setDefItem_DefItem : WB :=
  /- 1881 -/ .wrap .always k!"DEF-ITEM" (
    /- 1882 -/ .attr k!"T" .raw k!"timestamp" <|
    /- 1882 -/ .attr k!"UUID" .raw k!"uuid" <|
    /- 1884 -/ .attr k!"HELPENTRY" .getValue k!"helpEntry" <|
    /- 1885 -/ .each k!"def_doc" [] .plain [⟨[], [], k!"writeDocumentationBlock_DEF_DocumentationBlock"⟩] .skip <|
    .nil) <|
  .nil

/-- `setDefList`, `writer/arxml_writer.py:1873-1878` -/
def setDefList_DefList : WB :=
  /- 1875 -/ .wrap .always k!"DEF-LIST" (
    /- 1876 -/ .attr k!"T" .raw k!"timestamp" <|
    /- 1876 -/ .attr k!"UUID" .raw k!"uuid" <|
    /- 1878 -/ .each k!"defItems" [] .plain [⟨[], [], k!"setDefItem_DefItem"⟩] .skip <|
    .nil) <|
  .nil

/-- `writeTracedFailure`, `writer/arxml_writer.py:3767-3769` -/
def writeTracedFailure_TracedFailure : WB :=
  /- 3768 -/ writeIdentifiable_ARPackage.app <|
  /- 3769 -/ .prim k!"ID" .numerical k!"id" <|
  .nil

/-- `setDevelopmentError`, `writer/arxml_writer.py:3771-3773` -/
def setDevelopmentError_DevelopmentError : WB :=
  /- 3772 -/ .wrap .always k!"DEVELOPMENT-ERROR" (
    /- 3773 -/ writeTracedFailure_TracedFailure.app <|
    .nil) <|
  .nil

/-- `writeDiagnosticCapabilityElement`, `writer/arxml_writer.py:3541-3542`; also `writeAbstractImplementationDataTypeElement` -/
def writeDiagnosticCapabilityElement_DiagEventDebounceTimeBased : WB :=
  /- 3542 -/ writeARElement_System.app <|
  .nil

/-- `setDiagEventDebounceCounterBased`, `writer/arxml_writer.py:3633-3635` -/
def setDiagEventDebounceCounterBased_DiagEventDebounceCounterBased : WB :=
  /- 3634 -/ .wrap .always k!"DIAG-EVENT-DEBOUNCE-COUNTER-BASED" (
    /- 3635 -/ writeDiagnosticCapabilityElement_DiagEventDebounceTimeBased.app <|
    .nil) <|
  .nil

/-- `setDiagEventDebounceMonitorInternal`, `writer/arxml_writer.py:3637-3639` -/
def setDiagEventDebounceMonitorInternal_DiagEventDebounceMonitorInternal : WB :=
  /- 3638 -/ .wrap .always k!"DIAG-EVENT-DEBOUNCE-MONITOR-INTERNAL" (
    /- 3639 -/ writeDiagnosticCapabilityElement_DiagEventDebounceTimeBased.app <|
    .nil) <|
  .nil

/-- `setDiagEventDebounceTimeBased`, `writer/arxml_writer.py:3641-3643` -/
def setDiagEventDebounceTimeBased_DiagEventDebounceTimeBased : WB :=
  /- 3642 -/ .wrap .always k!"DIAG-EVENT-DEBOUNCE-TIME-BASED" (
    /- 3643 -/ writeDiagnosticCapabilityElement_DiagEventDebounceTimeBased.app <|
    .nil) <|
  .nil

/-- `setDoIpEntity`, `writer/arxml_writer.py:6449-6452` -/
def setDoIpEntity_DO_IP_ENTITY_DoIpEntity : WB :=
  /- 6451 -/ .wrap .always k!"DO-IP-ENTITY" (
    /- 6452 -/ .prim k!"DO-IP-ENTITY-ROLE" .lit k!"doIpEntityRole" <|
    .nil) <|
  .nil

/-- `writeEcucParameterValue`, `writer/arxml_writer.py:8274-8277`; also `writeEcucAbstractReferenceValue` -/
def writeEcucParameterValue_EcucParameterValue : WB :=
  /- 8275 -/ .prim k!"DEFINITION-REF" .ref k!"definitionRef" <|
  /- 2017 -/ .wrap (.any [(k!"annotations", [])]) k!"ANNOTATIONS" (
    /- 2019 -/ .each k!"annotations" [] .plain [⟨[], [], k!"writeIdentifiable_ARPackage_L2019"⟩] .skip <|
    .nil) <|
  /- 8277 -/ .prim k!"INDEX" .numerical k!"index" <|
  .nil

/-- `setEcucInstanceReferenceValue`, `writer/arxml_writer.py:8322-8326` -/
def setEcucInstanceReferenceValue_EcucInstanceReferenceValue : WB :=
  /- 8323 -/ .wrap .always k!"ECUC-INSTANCE-REFERENCE-VALUE" (
    /- 8324 -/ writeEcucParameterValue_EcucParameterValue.app <|
    /- 8325 -/ .each k!"valueRef" [] .plain [⟨[], [], k!"setAnyInstanceRef_VALUE_IREF_AnyInstanceRef"⟩] .skip <|
    .nil) <|
  .nil

/-- `setEcucNumericalParamValue`, `writer/arxml_writer.py:8284-8287` -/
def setEcucNumericalParamValue_EcucNumericalParamValue : WB :=
  /- 8285 -/ .wrap .always k!"ECUC-NUMERICAL-PARAM-VALUE" (
    /- 8286 -/ writeEcucParameterValue_EcucParameterValue.app <|
    /- 8287 -/ .prim k!"VALUE" .numerical k!"value" <|
    .nil) <|
  .nil

/-- `setEcucReferenceValue`, `writer/arxml_writer.py:8306-8311` -/
def setEcucReferenceValue_EcucReferenceValue : WB :=
  /- 8308 -/ .wrap .always k!"ECUC-REFERENCE-VALUE" (
    /- 8309 -/ writeEcucParameterValue_EcucParameterValue.app <|
    /- 8310 -/ .prim k!"VALUE-REF" .ref k!"valueRef" <|
    .nil) <|
  .nil

/-- `setEcucTextualParamValue`, `writer/arxml_writer.py:8279-8282` -/
def setEcucTextualParamValue_EcucTextualParamValue : WB :=
  /- 8280 -/ .wrap .always k!"ECUC-TEXTUAL-PARAM-VALUE" (
    /- 8281 -/ writeEcucParameterValue_EcucParameterValue.app <|
    /- 8282 -/ .prim k!"VALUE" .lit k!"value" <|
    .nil) <|
  .nil

/-- `setEmphasisText`, `writer/arxml_writer.py:883-893` -/
def setEmphasisText_E_EmphasisText : WB :=
  /- 884 -/ .wrap .always k!"E" (
    /- 886 -/ .attr k!"COLOR" .getValue k!"color" <|
    /- 888 -/ .attr k!"SUP" .getValue k!"sup" <|
    /- 890 -/ .attr k!"SUB" .getValue k!"sub" <|
    /- 891 -/ .text .getValue k!"value" <|
    /- 893 -/ .each k!"tt" [] .plain [⟨[], [], k!"setTt_TT_Tt"⟩] .skip <|
    .nil) <|
  .nil

/-- `writeEndToEndDescriptionDataIds`, `writer/arxml_writer.py:4560-4565`; also `writeEndToEndTransformationISignalPropsDataIds` -/
def writeEndToEndDescriptionDataIds_EndToEndDescription : WB :=
  /- 4563 -/ .wrap (.any [(k!"dataIds", [])]) k!"DATA-IDS" (
    /- 4565 -/ .prim k!"DATA-ID" .numerical k!"dataIds" <|
    .nil) <|
  .nil

/-- `setEndToEndDescription`, `writer/arxml_writer.py:4567-4577` -/
def setEndToEndDescription_END_TO_END_PROFILE_EndToEndDescription : WB :=
  /- 4569 -/ .wrap .always k!"END-TO-END-PROFILE" (
    /- 4570 -/ .attr k!"T" .raw k!"timestamp" <|
    /- 4570 -/ .attr k!"UUID" .raw k!"uuid" <|
    /- 4571 -/ .prim k!"CATEGORY" .lit k!"category" <|
    /- 4572 -/ writeEndToEndDescriptionDataIds_EndToEndDescription.app <|
    /- 4573 -/ .prim k!"DATA-ID-MODE" .numerical k!"dataIdMode" <|
    /- 4574 -/ .prim k!"DATA-LENGTH" .numerical k!"dataLength" <|
    /- 4575 -/ .prim k!"MAX-DELTA-COUNTER-INIT" .numerical k!"maxDeltaCounterInit" <|
    /- 4576 -/ .prim k!"CRC-OFFSET" .numerical k!"crcOffset" <|
    /- 4577 -/ .prim k!"COUNTER-OFFSET" .numerical k!"counterOffset" <|
    .nil) <|
  .nil

/-- `setEventControlledTiming`, `writer/arxml_writer.py:9107-9111` -/
def setEventControlledTiming_EVENT_CONTROLLED_TIMING_EventControlledTiming : WB :=
  /- 9109 -/ .wrap .always k!"EVENT-CONTROLLED-TIMING" (
    /- 9110 -/ .prim k!"NUMBER-OF-REPETITIONS" .numerical k!"numberOfRepetitions" <|
    /- 9111 -/ .each k!"repetitionPeriod" [] .plain [⟨[], [], k!"setTimeRangeType_REPETITION_PERIOD_TimeRangeType"⟩] .skip <|
    .nil) <|
  .nil

/-- `setFlatInstanceDescriptor`, `writer/arxml_writer.py:8048-8053` -/
def setFlatInstanceDescriptor_FlatInstanceDescriptor : WB :=
  /- 8050 -/ .wrap .always k!"FLAT-INSTANCE-DESCRIPTOR" (
    /- 8051 -/ writeIdentifiable_ARPackage.app <|
    /- 8052 -/ .each k!"upstreamReferenceIRef" [] .plain [⟨[], [], k!"setAnyInstanceRef_UPSTREAM_REFERENCE_IREF_AnyInstanceRef"⟩] .skip <|
    /- 8053 -/ .each k!"ecuExtractReferenceIRef" [] .plain [⟨[], [], k!"setAnyInstanceRef_ECU_EXTRACT_REFERENCE_IREF_AnyInstanceRef"⟩] .skip <|
    .nil) <|
  .nil

/-- `setFlexrayFifoConfiguration`, `writer/arxml_writer.py:7535-7546` -/
def setFlexrayFifoConfiguration_FLEXRAY_FIFO_CONFIGURATION_FlexrayFifoConfiguration : WB :=
  /- 7537 -/ .wrap .always k!"FLEXRAY-FIFO-CONFIGURATION" (
    /- 7538 -/ .prim k!"ADMIT-WITHOUT-MESSAGE-ID" .lit k!"admitWithoutMessageId" <|
    /- 7539 -/ .prim k!"BASE-CYCLE" .numerical k!"baseCycle" <|
    /- 7540 -/ .prim k!"CHANNEL-REF" .ref k!"channelRef" <|
    /- 7541 -/ .prim k!"CYCLE-REPETITION" .numerical k!"cycleRepetition" <|
    /- 7542 -/ .prim k!"FIFO-DEPTH" .numerical k!"fifoDepth" <|
    /- 7544 -/ .each k!"fifoRange" [] .plain [⟨[], [], k!"setFlexrayFifoRange_FLEXRAY_FIFO_RANGE_FlexrayFifoRange"⟩] .skip <|
    /- 7545 -/ .prim k!"MSG-ID-MASK" .numerical k!"msgIdMask" <|
    /- 7546 -/ .prim k!"MSG-ID-MATCH" .numerical k!"msgIdMatch" <|
    .nil) <|
  .nil

/-- `setFlexrayFifoRange`, `writer/arxml_writer.py:7529-7533` -/
def setFlexrayFifoRange_FLEXRAY_FIFO_RANGE_FlexrayFifoRange : WB :=
  /- 7531 -/ .wrap .always k!"FLEXRAY-FIFO-RANGE" (
    /- 7532 -/ .prim k!"RANGE-MAX" .numerical k!"rangeMax" <|
    /- 7533 -/ .prim k!"RANGE-MIN" .numerical k!"rangeMin" <|
    .nil) <|
  .nil

/-- `setGraphic`, `writer/arxml_writer.py:1827-1831` -/
def setGraphic_GRAPHIC_Graphic : WB :=
  /- 1829 -/ .wrap .always k!"GRAPHIC" (
    /- 1831 -/ .attr k!"FILENAME" .raw k!"filename" <|
    .nil) <|
  .nil

/-- `setHardwareConfiguration`, `writer/arxml_writer.py:4069-4074` -/
def setHardwareConfiguration_HardwareConfiguration : WB :=
  /- 4071 -/ .wrap .always k!"HARDWARE-CONFIGURATION" (
    /- 4072 -/ .prim k!"ADDITIONAL-INFORMATION" .lit k!"additionalInformation" <|
    /- 4073 -/ .prim k!"PROCESSOR-MODE" .lit k!"processorMode" <|
    /- 4074 -/ .prim k!"PROCESSOR-SPEED" .lit k!"processorSpeed" <|
    .nil) <|
  .nil

/-- `setIndentSample`, `writer/arxml_writer.py:1910-1916` -/
def setIndentSample_IndentSample : WB :=
  /- 1911 -/ .wrap .always k!"INDENT-SAMPLE" (
    /- 1912 -/ .attr k!"T" .raw k!"timestamp" <|
    /- 1912 -/ .attr k!"UUID" .raw k!"uuid" <|
    /- 1914 -/ .attr k!"ITEMLABELPOS" .getValue k!"itemLabelPos" <|
    /- 1916 -/ .each k!"l2s" [] .plain [⟨[], [], k!"setLOverviewParagraph_LOverviewParagraph"⟩] .skip <|
    .nil) <|
  .nil

/-- `setIndexEntry`, `writer/arxml_writer.py:895-901` -/
def setIndexEntry_IE_IndexEntry : WB :=
  /- 896 -/ .wrap .always k!"IE" (
    /- 898 -/ .attr k!"SUP" .getValue k!"sup" <|
    /- 900 -/ .attr k!"SUB" .getValue k!"sub" <|
    /- 901 -/ .text .getValue k!"value" <|
    .nil) <|
  .nil

/-- `setInfrastructureServices`, `writer/arxml_writer.py:6454-6457` -/
def setInfrastructureServices_INFRASTRUCTURE_SERVICES_InfrastructureServices : WB :=
  /- 6456 -/ .wrap .always k!"INFRASTRUCTURE-SERVICES" (
    /- 6457 -/ .each k!"doIpEntity" [] .plain [⟨[], [], k!"setDoIpEntity_DO_IP_ENTITY_DoIpEntity"⟩] .skip <|
    .nil) <|
  .nil

/-- `setInitialSdDelayConfig`, `writer/arxml_writer.py:6629-6635` -/
def setInitialSdDelayConfig_INITIAL_FIND_BEHAVIOR_InitialSdDelayConfig : WB :=
  /- 6631 -/ .wrap .always k!"INITIAL-FIND-BEHAVIOR" (
    /- 6632 -/ .prim k!"INITIAL-DELAY-MAX-VALUE" .lit k!"initialDelayMaxValue" <|
    /- 6633 -/ .prim k!"INITIAL-DELAY-MIN-VALUE" .lit k!"initialDelayMinValue" <|
    /- 6634 -/ .prim k!"INITIAL-REPETITIONS-BASE-DELAY" .lit k!"initialRepetitionsBaseDelay" <|
    /- 6635 -/ .prim k!"INITIAL-REPETITIONS-MAX" .numerical k!"initialRepetitionsMax" <|
    .nil) <|
  .nil

/-- `setInitialSdDelayConfig`, `writer/arxml_writer.py:6629-6635` -/
def setInitialSdDelayConfig_INITIAL_OFFER_BEHAVIOR_InitialSdDelayConfig : WB :=
  /- 6631 -/ .wrap .always k!"INITIAL-OFFER-BEHAVIOR" (
    /- 6632 -/ .prim k!"INITIAL-DELAY-MAX-VALUE" .lit k!"initialDelayMaxValue" <|
    /- 6633 -/ .prim k!"INITIAL-DELAY-MIN-VALUE" .lit k!"initialDelayMinValue" <|
    /- 6634 -/ .prim k!"INITIAL-REPETITIONS-BASE-DELAY" .lit k!"initialRepetitionsBaseDelay" <|
    /- 6635 -/ .prim k!"INITIAL-REPETITIONS-MAX" .numerical k!"initialRepetitionsMax" <|
    .nil) <|
  .nil

/-- `setInternalConstrs`, `writer/arxml_writer.py:2463-2478` -/
def setInternalConstrs_InternalConstrs : WB :=
  /- 2465 -/ .wrap .always k!"INTERNAL-CONSTRS" (
    /- 2466 -/ .attr k!"T" .raw k!"timestamp" <|
    /- 2466 -/ .attr k!"UUID" .raw k!"uuid" <|
    /- 2468 -/ .prim k!"LOWER-LIMIT" .limit k!"lowerLimit" <|
    /- 2470 -/ .prim k!"UPPER-LIMIT" .limit k!"upperLimit" <|
    /- 2473 -/ .wrap (.any [(k!"scaleConstrs", [])]) k!"SCALE-CONSTRS" (
      /- 2475 -/ .each k!"scaleConstrs" [] .plain [⟨[], [], k!"setScaleConstr_SCALE_CONSTR_ScaleConstr"⟩] .skip <|
      .nil) <|
    /- 2476 -/ .prim k!"MAX-GRADIENT" .numerical k!"maxGradient" <|
    /- 2477 -/ .prim k!"MAX-DIFF" .numerical k!"maxDiff" <|
    /- 2478 -/ .prim k!"MONOTONY" .lit k!"monotony" <|
    .nil) <|
  .nil

/-- `setIpv6Configuration`, `writer/arxml_writer.py:6429-6438` -/
def setIpv6Configuration_Ipv6Configuration : WB :=
  /- 6431 -/ .wrap .always k!"IPV-6-CONFIGURATION" (
    /- 6432 -/ .prim k!"ASSIGNMENT-PRIORITY" .numerical k!"assignmentPriority" <|
    /- 6433 -/ .prim k!"DEFAULT-ROUTER" .lit k!"defaultRouter" <|
    /- 6434 -/ .prim k!"ENABLE-ANYCAST" .lit k!"enableAnycast" <|
    /- 6435 -/ .prim k!"HOP-COUNT" .numerical k!"hopCount" <|
    /- 6436 -/ .prim k!"IP-ADDRESS-PREFIX-LENGTH" .numerical k!"ipAddressPrefixLength" <|
    /- 6437 -/ .prim k!"IPV-6-ADDRESS" .lit k!"ipv6Address" <|
    /- 6438 -/ .prim k!"IPV-6-ADDRESS-SOURCE" .lit k!"ipv6AddressSource" <|
    .nil) <|
  .nil

/-- `setLLongName`, `writer/arxml_writer.py:866-881` -/
def setLLongName_LLongName : WB :=
  /- 867 -/ .wrap .always k!"L-4" (
    /- 868 -/ .attr k!"T" .raw k!"timestamp" <|
    /- 868 -/ .attr k!"UUID" .raw k!"uuid" <|
    /- 870 -/ .attr k!"L" .raw k!"l" <|
    /- 872 -/ .attr k!"SUP" .getValue k!"sup" <|
    /- 874 -/ .attr k!"SUB" .getValue k!"sub" <|
    /- 875 -/ .text .raw k!"value" <|
    /- 877 -/ .each k!"e" [] .plain [⟨[], [], k!"setEmphasisText_E_EmphasisText"⟩] .skip <|
    /- 879 -/ .each k!"ie" [] .plain [⟨[], [], k!"setIndexEntry_IE_IndexEntry"⟩] .skip <|
    /- 881 -/ .each k!"tt" [] .plain [⟨[], [], k!"setTt_TT_Tt"⟩] .skip <|
    .nil) <|
  .nil

/-- `setLanguageSpecific`, `writer/arxml_writer.py:859-864` -/
def setLanguageSpecific_L_2_LanguageSpecific : WB :=
  /- 860 -/ .wrap .always k!"L-2" (
    /- 861 -/ .attr k!"T" .raw k!"timestamp" <|
    /- 861 -/ .attr k!"UUID" .raw k!"uuid" <|
    /- 863 -/ .attr k!"L" .raw k!"l" <|
    /- 864 -/ .text .raw k!"value" <|
    .nil) <|
  .nil

/-- `setLOverviewParagraph`, `writer/arxml_writer.py:918-919` -/
def setLOverviewParagraph_LOverviewParagraph : WB :=
  /- 919 -/ setLanguageSpecific_L_2_LanguageSpecific.app <|
  .nil

/-- `setLanguageSpecific`, `writer/arxml_writer.py:859-864` -/
def setLanguageSpecific_L_10_LanguageSpecific : WB :=
  /- 860 -/ .wrap .always k!"L-10" (
    /- 861 -/ .attr k!"T" .raw k!"timestamp" <|
    /- 861 -/ .attr k!"UUID" .raw k!"uuid" <|
    /- 863 -/ .attr k!"L" .raw k!"l" <|
    /- 864 -/ .text .raw k!"value" <|
    .nil) <|
  .nil

/-- `setLPlainText`, `writer/arxml_writer.py:939-940` -/
def setLPlainText_LPlainText : WB :=
  /- 940 -/ setLanguageSpecific_L_10_LanguageSpecific.app <|
  .nil

/-- `setLanguageSpecific`, `writer/arxml_writer.py:859-864` -/
def setLanguageSpecific_L_5_LanguageSpecific : WB :=
  /- 860 -/ .wrap .always k!"L-5" (
    /- 861 -/ .attr k!"T" .raw k!"timestamp" <|
    /- 861 -/ .attr k!"UUID" .raw k!"uuid" <|
    /- 863 -/ .attr k!"L" .raw k!"l" <|
    /- 864 -/ .text .raw k!"value" <|
    .nil) <|
  .nil

/-- `setLVerbatim`, `writer/arxml_writer.py:1984-1985` -/
def setLVerbatim_LVerbatim : WB :=
  /- 1985 -/ setLanguageSpecific_L_5_LanguageSpecific.app <|
  .nil

/-- `setLabeledItem`, `writer/arxml_writer.py:1918-1924` -/
def setLabeledItem_LabeledItem : WB :=
  /- 1919 -/ .wrap .always k!"LABELED-ITEM" (
    /- 1920 -/ .attr k!"T" .raw k!"timestamp" <|
    /- 1920 -/ .attr k!"UUID" .raw k!"uuid" <|
    /- 1922 -/ .attr k!"HELPENTRY" .getValue k!"helpEntry" <|
    /- 1923 -/ .each k!"itemLabel" [] .plain [⟨[], [], k!"setMultiLanguageOverviewParagraph_ITEM_LABEL_MultiLanguageOverviewParagraph"⟩] .skip <|
    /- 1924 -/ .each k!"itemContents" [] .plain [⟨[], [], k!"writeDocumentationBlock_ITEM_CONTENTS_DocumentationBlock"⟩] .skip <|
    .nil) <|
  .nil

/-- `setLabeledList`, `writer/arxml_writer.py:1901-1908` -/
def setLabeledList_LabeledList : WB :=
  /- 1903 -/ .wrap .always k!"LABELED-LIST" (
    /- 1904 -/ .attr k!"T" .raw k!"timestamp" <|
    /- 1904 -/ .attr k!"UUID" .raw k!"uuid" <|
    /- 1906 -/ .each k!"indentSample" [] .plain [⟨[], [], k!"setIndentSample_IndentSample"⟩] .skip <|
    /- 1908 -/ .each k!"labeledItems" [] .plain [⟨[], [], k!"setLabeledItem_LabeledItem"⟩] .skip <|
    .nil) <|
  .nil

/-- `setLifeCyclePeriod`, `writer/arxml_writer.py:8632-8635` -/
def setLifeCyclePeriod_PERIOD_BEGIN_LifeCyclePeriod : WB :=
  /- 8634 -/ .wrap .always k!"PERIOD-BEGIN" (
    /- 8635 -/ .prim k!"AR-RELEASE-VERSION" .lit k!"arReleaseVersion" <|
    .nil) <|
  .nil

/-- `setListElement`, `writer/arxml_writer.py:1818-1825` -/
def setListElement_LIST_ARList : WB :=
  /- 1820 -/ .wrap .always k!"LIST" (
    /- 1823 -/ .attr k!"TYPE" .raw k!"type" <|
    /- 1825 -/ .each k!"items" [] .plain [⟨[], [], k!"writeDocumentationBlock_ITEM_DocumentationBlock"⟩] .skip <|
    .nil) <|
  .nil

end Verif.Gen.W
