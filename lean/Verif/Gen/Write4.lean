import Verif.Gen.Write3
-- generated by tools/gen_codec.py; do not edit
namespace Verif.Gen.W
open Verif Verif.Model

/-- `writePdu`, `writer/arxml_writer.py:8703-8706` -/
def writePdu_Pdu : WB :=
  /- 8704 -/ writeIdentifiable_ARPackage.app <|
  /- 8705 -/ .prim k!"HAS-DYNAMIC-LENGTH" .lit k!"hasDynamicLength" <|
  /- 8706 -/ .prim k!"LENGTH" .numerical k!"length" <|
  .nil

/-- `writeIPdu`, `writer/arxml_writer.py:8719-8721` -/
def writeIPdu_IPdu : WB :=
  /- 8720 -/ writePdu_Pdu.app <|
  /- 8721 -/ .each k!"containedIPduProps" [] .plain [⟨[], [], k!"writeContainedIPduProps_ContainedIPduProps"⟩] .skip <|
  .nil

/-- `writeDcmIPdu`, `writer/arxml_writer.py:5994-5998` -/
def writeDcmIPdu_DcmIPdu : WB :=
  /- 5996 -/ .wrap .always k!"DCM-I-PDU" (
    /- 5997 -/ writeIPdu_IPdu.app <|
    /- 5998 -/ .prim k!"DIAG-PDU-TYPE" .lit k!"diagPduType" <|
    .nil) <|
  .nil

/-- `writeDelegatedPortAnnotation`, `writer/arxml_writer.py:1439-1441` -/
def writeDelegatedPortAnnotation_DelegatedPortAnnotation : WB :=
  /- 1440 -/ .wrap .always k!"DELEGATED-PORT-ANNOTATION" (
    /- 1441 -/ .prim k!"SIGNAL-FAN" .lit k!"signalFan" <|
    .nil) <|
  .nil

/-- `writeDelegationSwConnector`, `writer/arxml_writer.py:1702-1721` -/
def writeDelegationSwConnector_DelegationSwConnector : WB :=
  /- 1703 -/ .wrap .always k!"DELEGATION-SW-CONNECTOR" (
    /- 1704 -/ writeIdentifiable_ARPackage.app <|
    /- 1707 -/ .wrap (.any [(k!"innerPortIRref", [])]) k!"INNER-PORT-IREF" (
      /- 1710 -/ .each k!"innerPortIRref" [] .plain [⟨[(false, [k!"PPortInCompositionInstanceRef"])], [], k!"writeDelegationSwConnector_DelegationSwConnector_L1710"⟩,
        ⟨[(false, [k!"RPortInCompositionInstanceRef"])], [k!"PPortInCompositionInstanceRef"], k!"writeDelegationSwConnector_DelegationSwConnector_L1714"⟩] .invalid <|
      .nil) <|
    /- 1721 -/ .prim k!"OUTER-PORT-REF" .ref k!"outerPortRef" <|
    .nil) <|
  .nil

/-- `writeDelegationSwConnector`, `writer/arxml_writer.py:1702-1721` (the block at line 1710) -/
def writeDelegationSwConnector_DelegationSwConnector_L1710 : WB :=
  /- 1710 -/ .wrap .always k!"P-PORT-IN-COMPOSITION-INSTANCE-REF" (
    /- 1711 -/ .prim k!"CONTEXT-COMPONENT-REF" .ref k!"contextComponentRef" <|
    /- 1712 -/ .prim k!"TARGET-P-PORT-REF" .ref k!"targetPPortRef" <|
    .nil) <|
  .nil

/-- `writeDelegationSwConnector`, `writer/arxml_writer.py:1702-1721` (the block at line 1714) -/
def writeDelegationSwConnector_DelegationSwConnector_L1714 : WB :=
  /- 1714 -/ .wrap .always k!"R-PORT-IN-COMPOSITION-INSTANCE-REF" (
    /- 1715 -/ .prim k!"CONTEXT-COMPONENT-REF" .ref k!"contextComponentRef" <|
    /- 1716 -/ .prim k!"TARGET-R-PORT-REF" .ref k!"targetRPortRef" <|
    .nil) <|
  .nil

/-- `writeDependencyOnArtifact`, `writer/arxml_writer.py:4534-4545` -/
def writeDependencyOnArtifact_DependencyOnArtifact : WB :=
  /- 4535 -/ .wrap .always k!"DEPENDENCY-ON-ARTIFACT" (
    /- 4536 -/ writeIdentifiable_ARPackage.app <|
    /- 4539 -/ .each k!"artifactDescriptor" [] .plain [⟨[], [], k!"writeDependencyOnArtifact_DependencyOnArtifact_L4539"⟩] .skip <|
    /- 4543 -/ .wrap (.any [(k!"usages", [])]) k!"USAGES" (
      /- 4545 -/ .prim k!"USAGE" .lit k!"usages" <|
      .nil) <|
    .nil) <|
  .nil

/-- `writeDependencyOnArtifact`, `writer/arxml_writer.py:4534-4545` (the block at line 4539) -/
def writeDependencyOnArtifact_DependencyOnArtifact_L4539 : WB :=
  /- 4539 -/ .wrap .always k!"ARTIFACT-DESCRIPTOR" (
    /- 4540 -/ writeAutosarEngineeringObject_AutosarEngineeringObject.app <|
    .nil) <|
  .nil

/-- `writeDescribable`, `writer/arxml_writer.py:9241-9246` -/
def writeDescribable_Describable : WB :=
  /- 9242 -/ .attr k!"T" .raw k!"timestamp" <|
  /- 9242 -/ .attr k!"UUID" .raw k!"uuid" <|
  /- 9243 -/ .each k!"desc" [] .plain [⟨[], [], k!"setMultiLanguageOverviewParagraph_DESC_MultiLanguageOverviewParagraph"⟩] .skip <|
  /- 9244 -/ .prim k!"CATEGORY" .lit k!"category" <|
  /- 9245 -/ .each k!"introduction" [] .plain [⟨[], [], k!"writeDocumentationBlock_INTRODUCTION_DocumentationBlock"⟩] .skip <|
  /- 9246 -/ .each k!"adminData" [] .plain [⟨[], [], k!"setAdminData_AdminData"⟩] .skip <|
  .nil

/-- `writeDiagEventDebounceAlgorithm`, `writer/arxml_writer.py:3645-3656` -/
def writeDiagEventDebounceAlgorithm_DiagnosticEventNeeds : WB :=
  /- 3648 -/ .wrap (.any [(k!"diagEventDebounceAlgorithm", [])]) k!"DIAG-EVENT-DEBOUNCE-ALGORITHM" (
    /- 3650 -/ .each k!"diagEventDebounceAlgorithm" [] .plain [⟨[(false, [k!"DiagEventDebounceCounterBased"])], [], k!"setDiagEventDebounceCounterBased_DiagEventDebounceCounterBased"⟩,
      ⟨[(false, [k!"DiagEventDebounceMonitorInternal"])], [k!"DiagEventDebounceCounterBased"], k!"setDiagEventDebounceMonitorInternal_DiagEventDebounceMonitorInternal"⟩,
      ⟨[(false, [k!"DiagEventDebounceTimeBased"])], [k!"DiagEventDebounceCounterBased", k!"DiagEventDebounceMonitorInternal"], k!"setDiagEventDebounceTimeBased_DiagEventDebounceTimeBased"⟩] .unsupported <|
    .nil) <|
  .nil

/-- `writeDiagnosticCommunicationManagerNeeds`, `writer/arxml_writer.py:3544-3548` -/
def writeDiagnosticCommunicationManagerNeeds_DiagnosticCommunicationManagerNeeds : WB :=
  /- 3545 -/ .wrap .always k!"DIAGNOSTIC-COMMUNICATION-MANAGER-NEEDS" (
    /- 3547 -/ writeDiagnosticCapabilityElement_DiagEventDebounceTimeBased.app <|
    /- 3548 -/ .prim k!"SERVICE-REQUEST-CALLBACK-TYPE" .lit k!"serviceRequestCallbackType" <|
    .nil) <|
  .nil

/-- `writeDiagnosticConnectionFunctionalRequestRefs`, `writer/arxml_writer.py:8673-8678` -/
def writeDiagnosticConnectionFunctionalRequestRefs_DiagnosticConnection : WB :=
  /- 8676 -/ .wrap (.any [(k!"functionalRequestRefs", [])]) k!"FUNCTIONAL-REQUEST-REFS" (
    /- 8678 -/ .prim k!"FUNCTIONAL-REQUEST-REF" .ref k!"functionalRequestRefs" <|
    .nil) <|
  .nil

/-- `writeDiagnosticConnection`, `writer/arxml_writer.py:8680-8686` -/
def writeDiagnosticConnection_DiagnosticConnection : WB :=
  /- 8682 -/ .wrap .always k!"DIAGNOSTIC-CONNECTION" (
    /- 8683 -/ writeIdentifiable_ARPackage.app <|
    /- 8684 -/ writeDiagnosticConnectionFunctionalRequestRefs_DiagnosticConnection.app <|
    /- 8685 -/ .prim k!"PHYSICAL-REQUEST-REF" .ref k!"physicalRequestRef" <|
    /- 8686 -/ .prim k!"RESPONSE-REF" .ref k!"responseOnEventRef" <|
    .nil) <|
  .nil

/-- `writeDiagnosticEnableConditionNeeds`, `writer/arxml_writer.py:3693-3697` -/
def writeDiagnosticEnableConditionNeeds_DiagnosticEnableConditionNeeds : WB :=
  /- 3695 -/ .wrap .always k!"DIAGNOSTIC-ENABLE-CONDITION-NEEDS" (
    /- 3696 -/ writeDiagnosticCapabilityElement_DiagEventDebounceTimeBased.app <|
    /- 3697 -/ .prim k!"INITIAL-STATUS" .lit k!"initialStatus" <|
    .nil) <|
  .nil

/-- `writeDiagnosticEventInfoNeeds`, `writer/arxml_writer.py:3677-3682` -/
def writeDiagnosticEventInfoNeeds_DiagnosticEventInfoNeeds : WB :=
  /- 3679 -/ .wrap .always k!"DIAGNOSTIC-EVENT-INFO-NEEDS" (
    /- 3680 -/ writeDiagnosticCapabilityElement_DiagEventDebounceTimeBased.app <|
    /- 3681 -/ .prim k!"DTC-KIND" .lit k!"dtcKind" <|
    /- 3682 -/ .prim k!"UDS-DTC-NUMBER" .numerical k!"udsDtcNumber" <|
    .nil) <|
  .nil

/-- `writeDiagnosticEventNeeds`, `writer/arxml_writer.py:3658-3675` -/
def writeDiagnosticEventNeeds_DiagnosticEventNeeds : WB :=
  /- 3660 -/ .wrap .always k!"DIAGNOSTIC-EVENT-NEEDS" (
    /- 3661 -/ writeDiagnosticCapabilityElement_DiagEventDebounceTimeBased.app <|
    /- 3664 -/ .wrap (.any [(k!"deferringFidRefs", [])]) k!"DEFERRING-FID-REFS" (
      /- 3666 -/ .prim k!"DEFERRING-FID-REF" .ref k!"deferringFidRefs" <|
      .nil) <|
    /- 3667 -/ writeDiagEventDebounceAlgorithm_DiagnosticEventNeeds.app <|
    /- 3668 -/ .prim k!"INHIBITING-FID-REF" .ref k!"inhibitingFidRef" <|
    /- 3671 -/ .wrap (.any [(k!"inhibitingSecondaryFidRefs", [])]) k!"INHIBITING-SECONDARY-FID-REFS" (
      /- 3673 -/ .prim k!"INHIBITING-SECONDARY-FID-REF" .ref k!"inhibitingSecondaryFidRefs" <|
      .nil) <|
    /- 3674 -/ .prim k!"PRESTORED-FREEZEFRAME-STORED-IN-NVM" .lit k!"prestoredFreezeframeStoredInNvm" <|
    /- 3675 -/ .prim k!"USES-MONITOR-DATA" .lit k!"usesMonitorData" <|
    .nil) <|
  .nil

/-- `writeDiagnosticIoControlNeeds`, `writer/arxml_writer.py:3684-3691` -/
def writeDiagnosticIoControlNeeds_DiagnosticIoControlNeeds : WB :=
  /- 3686 -/ .wrap .always k!"DIAGNOSTIC-IO-CONTROL-NEEDS" (
    /- 3687 -/ writeDiagnosticCapabilityElement_DiagEventDebounceTimeBased.app <|
    /- 3688 -/ .prim k!"CURRENT-VALUE-REF" .ref k!"currentValueRef" <|
    /- 3689 -/ .prim k!"FREEZE-CURRENT-STATE-SUPPORTED" .lit k!"freezeCurrentStateSupported" <|
    /- 3690 -/ .prim k!"RESET-TO-DEFAULT-SUPPORTED" .lit k!"resetToDefaultSupported" <|
    /- 3691 -/ .prim k!"SHORT-TERM-ADJUSTMENT-SUPPORTED" .lit k!"shortTermAdjustmentSupported" <|
    .nil) <|
  .nil

/-- `writeDiagnosticOperationCycleNeeds`, `writer/arxml_writer.py:3699-3703` -/
def writeDiagnosticOperationCycleNeeds_DiagnosticOperationCycleNeeds : WB :=
  /- 3701 -/ .wrap .always k!"DIAGNOSTIC-OPERATION-CYCLE-NEEDS" (
    /- 3702 -/ writeDiagnosticCapabilityElement_DiagEventDebounceTimeBased.app <|
    /- 3703 -/ .prim k!"OPERATION-CYCLE" .lit k!"operationCycle" <|
    .nil) <|
  .nil

/-- `writeDiagnosticRoutineNeeds`, `writer/arxml_writer.py:3550-3555` -/
def writeDiagnosticRoutineNeeds_DiagnosticRoutineNeeds : WB :=
  /- 3551 -/ .wrap .always k!"DIAGNOSTIC-ROUTINE-NEEDS" (
    /- 3553 -/ writeDiagnosticCapabilityElement_DiagEventDebounceTimeBased.app <|
    /- 3554 -/ .prim k!"DIAG-ROUTINE-TYPE" .lit k!"diagRoutineType" <|
    /- 3555 -/ .prim k!"RID-NUMBER" .numerical k!"RidNumber" <|
    .nil) <|
  .nil

/-- `writeDiagnosticServiceTableDiagnosticConnectionRefs`, `writer/arxml_writer.py:8688-8694` -/
def writeDiagnosticServiceTableDiagnosticConnectionRefs_DiagnosticServiceTable : WB :=
  /- 8691 -/ .wrap (.any [(k!"diagnosticConnectionRefs", [])]) k!"DIAGNOSTIC-CONNECTIONS" (
    /- 8694 -/ .oprim k!"DIAGNOSTIC-CONNECTION-REF-CONDITIONAL" k!"DIAGNOSTIC-CONNECTION-REF" .ref k!"diagnosticConnectionRefs" <|
    .nil) <|
  .nil

/-- `writeDiagnosticServiceTable`, `writer/arxml_writer.py:8696-8701` -/
def writeDiagnosticServiceTable_DiagnosticServiceTable : WB :=
  /- 8698 -/ .wrap .always k!"DIAGNOSTIC-SERVICE-TABLE" (
    /- 8699 -/ writeIdentifiable_ARPackage.app <|
    /- 8700 -/ writeDiagnosticServiceTableDiagnosticConnectionRefs_DiagnosticServiceTable.app <|
    /- 8701 -/ .prim k!"ECU-INSTANCE-REF" .ref k!"ecuInstanceRef" <|
    .nil) <|
  .nil

/-- `writeDiagnosticStorageConditionNeeds`, `writer/arxml_writer.py:3705-3709` -/
def writeDiagnosticStorageConditionNeeds_DiagnosticStorageConditionNeeds : WB :=
  /- 3707 -/ .wrap .always k!"DIAGNOSTIC-STORAGE-CONDITION-NEEDS" (
    /- 3708 -/ writeDiagnosticCapabilityElement_DiagEventDebounceTimeBased.app <|
    /- 3709 -/ .prim k!"INITIAL-STATUS" .lit k!"initialStatus" <|
    .nil) <|
  .nil

/-- `writeDiagnosticValueNeeds`, `writer/arxml_writer.py:3557-3565` -/
def writeDiagnosticValueNeeds_DiagnosticValueNeeds : WB :=
  /- 3558 -/ .wrap .always k!"DIAGNOSTIC-VALUE-NEEDS" (
    /- 3560 -/ writeDiagnosticCapabilityElement_DiagEventDebounceTimeBased.app <|
    /- 3561 -/ .prim k!"DATA-LENGTH" .numerical k!"dataLength" <|
    /- 3562 -/ .prim k!"DIAGNOSTIC-VALUE-ACCESS" .lit k!"diagnosticValueAccess" <|
    /- 3563 -/ .prim k!"DID-NUMBER" .numerical k!"DidNumber" <|
    /- 3564 -/ .prim k!"FIXED-LENGTH" .lit k!"fixedLength" <|
    /- 3565 -/ .prim k!"PROCESSING-STYLE" .lit k!"processingStyle" <|
    .nil) <|
  .nil

/-- `writeDltUserNeeds`, `writer/arxml_writer.py:3740-3743` -/
def writeDltUserNeeds_DltUserNeeds : WB :=
  /- 3742 -/ .wrap .always k!"DLT-USER-NEEDS" (
    /- 3743 -/ writeARElement_System.app <|
    .nil) <|
  .nil

/-- `writeDoIpLogicAddress`, `writer/arxml_writer.py:8869-8873` -/
def writeDoIpLogicAddress_DoIpLogicAddress : WB :=
  /- 8871 -/ .wrap .always k!"DO-IP-LOGIC-ADDRESS" (
    /- 8872 -/ writeIdentifiable_ARPackage.app <|
    /- 8873 -/ .prim k!"ADDRESS" .numerical k!"address" <|
    .nil) <|
  .nil

/-- `writeDoIpRoutingActivationAuthenticationNeeds`, `writer/arxml_writer.py:3605-3611` -/
def writeDoIpRoutingActivationAuthenticationNeeds_DoIpRoutingActivationAuthenticationNeeds : WB :=
  /- 3606 -/ .wrap .always k!"DO-IP-ROUTING-ACTIVATION-AUTHENTICATION-NEEDS" (
    /- 3608 -/ writeARElement_System.app <|
    /- 3609 -/ .prim k!"DATA-LENGTH-REQUEST" .numerical k!"dataLengthRequest" <|
    /- 3610 -/ .prim k!"DATA-LENGTH-RESPONSE" .numerical k!"dataLengthResponse" <|
    /- 3611 -/ .prim k!"ROUTING-ACTIVATION-TYPE" .lit k!"routingActivationType" <|
    .nil) <|
  .nil

/-- `writeDoIpRoutingActivationConfirmationNeeds`, `writer/arxml_writer.py:3613-3619` -/
def writeDoIpRoutingActivationConfirmationNeeds_DoIpRoutingActivationConfirmationNeeds : WB :=
  /- 3614 -/ .wrap .always k!"DO-IP-ROUTING-ACTIVATION-CONFIRMATION-NEEDS" (
    /- 3616 -/ writeARElement_System.app <|
    /- 3617 -/ .prim k!"DATA-LENGTH-REQUEST" .numerical k!"dataLengthRequest" <|
    /- 3618 -/ .prim k!"DATA-LENGTH-RESPONSE" .numerical k!"dataLengthResponse" <|
    /- 3619 -/ .prim k!"ROUTING-ACTIVATION-TYPE" .lit k!"routingActivationType" <|
    .nil) <|
  .nil

/-- `writeDoIpTpConfigDoIpLogicAddresses`, `writer/arxml_writer.py:8875-8883` -/
def writeDoIpTpConfigDoIpLogicAddresses_DoIpTpConfig : WB :=
  /- 8878 -/ .wrap (.any [(k!"doIpLogicAddresses", [])]) k!"DO-IP-LOGIC-ADDRESSS" (
    /- 8881 -/ .each k!"doIpLogicAddresses" [] .plain [⟨[(false, [k!"DoIpLogicAddress"])], [], k!"writeDoIpLogicAddress_DoIpLogicAddress"⟩] .unsupported <|
    .nil) <|
  .nil

/-- `writeDoIpTpConfigTpConnections`, `writer/arxml_writer.py:8893-8901` -/
def writeDoIpTpConfigTpConnections_DoIpTpConfig : WB :=
  /- 8896 -/ .wrap (.any [(k!"tpConnections", [])]) k!"TP-CONNECTIONS" (
    /- 8899 -/ .each k!"tpConnections" [] .plain [⟨[(false, [k!"DoIpTpConnection"])], [], k!"writeDoIpTpConnection_DoIpTpConnection"⟩] .unsupported <|
    .nil) <|
  .nil

/-- `writeDoIpTpConfig`, `writer/arxml_writer.py:8903-8908` -/
def writeDoIpTpConfig_DoIpTpConfig : WB :=
  /- 8905 -/ .wrap .always k!"DO-IP-TP-CONFIG" (
    /- 8906 -/ writeTpConfig_TpConfig.app <|
    /- 8907 -/ writeDoIpTpConfigDoIpLogicAddresses_DoIpTpConfig.app <|
    /- 8908 -/ writeDoIpTpConfigTpConnections_DoIpTpConfig.app <|
    .nil) <|
  .nil

/-- `writeDoIpTpConnection`, `writer/arxml_writer.py:8885-8891` -/
def writeDoIpTpConnection_DoIpTpConnection : WB :=
  /- 8887 -/ .wrap .always k!"DO-IP-TP-CONNECTION" (
    /- 8888 -/ writeTpConnection_TpConnection.app <|
    /- 8889 -/ .prim k!"DO-IP-SOURCE-ADDRESS-REF" .ref k!"doIpSourceAddressRef" <|
    /- 8890 -/ .prim k!"DO-IP-TARGET-ADDRESS-REF" .ref k!"doIpTargetAddressRef" <|
    /- 8891 -/ .prim k!"TP-SDU-REF" .ref k!"tpSduRef" <|
    .nil) <|
  .nil

/-- `writeDocRevisionModifications`, `writer/arxml_writer.py:955-963` -/
def writeDocRevisionModifications_DocRevision : WB :=
  /- 958 -/ .wrap (.any [(k!"modifications", [])]) k!"MODIFICATIONS" (
    /- 961 -/ .each k!"modifications" [] .plain [⟨[(false, [k!"Modification"])], [], k!"writeModification_Modification"⟩] .unsupported <|
    .nil) <|
  .nil

/-- `writeDocRevision`, `writer/arxml_writer.py:965-974` -/
def writeDocRevision_DocRevision : WB :=
  /- 967 -/ .wrap .always k!"DOC-REVISION" (
    /- 970 -/ .prim k!"REVISION-LABEL" .lit k!"revisionLabel" <|
    /- 971 -/ .prim k!"STATE" .lit k!"state" <|
    /- 972 -/ .prim k!"ISSUED-BY" .lit k!"issuedBy" <|
    /- 973 -/ .prim k!"DATE" .lit k!"date" <|
    /- 974 -/ writeDocRevisionModifications_DocRevision.app <|
    .nil) <|
  .nil

/-- `writeDocumentationBlock`, `writer/arxml_writer.py:1856-1871` -/
def writeDocumentationBlock_ANNOTATION_TEXT_DocumentationBlock : WB :=
  /- 1858 -/ .wrap .always k!"ANNOTATION-TEXT" (
    /- 1859 -/ .attr k!"T" .raw k!"timestamp" <|
    /- 1859 -/ .attr k!"UUID" .raw k!"uuid" <|
    /- 1860 -/ .each k!"msrQueryP2" [] .plain [⟨[], [], k!"setMsrQueryP2_MsrQueryP2"⟩] .skip <|
    /- 1813 -/ .each k!"ps" [] .plain [⟨[], [], k!"writeDocumentationBlock_DEF_DocumentationBlock_L1813"⟩] .skip <|
    /- 1862 -/ .each k!"verbatim" [] .plain [⟨[], [], k!"setMultiLanguageVerbatim_VERBATIM_MultiLanguageVerbatim"⟩] .skip <|
    /- 1864 -/ .each k!"lists" [] .plain [⟨[], [], k!"setListElement_LIST_ARList"⟩] .skip <|
    /- 1865 -/ .each k!"defList" [] .plain [⟨[], [], k!"setDefList_DefList"⟩] .skip <|
    /- 1866 -/ .each k!"labeledList" [] .plain [⟨[], [], k!"setLabeledList_LabeledList"⟩] .skip <|
    /- 1867 -/ .each k!"formula" [] .plain [⟨[], [], k!"setMlFormula_FORMULA_MlFormula"⟩] .skip <|
    /- 1853 -/ .each k!"figures" [] .plain [⟨[], [], k!"writeDocumentationBlock_DEF_DocumentationBlock_L1853"⟩] .skip <|
    /- 1869 -/ .each k!"note" [] .plain [⟨[], [], k!"setNote_Note"⟩] .skip <|
    /- 1870 -/ .each k!"trace" [] .plain [⟨[], [], k!"setTraceableText_TRACE_TraceableText"⟩] .skip <|
    /- 1871 -/ .each k!"structuredReq" [] .plain [⟨[], [], k!"setStructuredReq_StructuredReq"⟩] .skip <|
    .nil) <|
  .nil

/-- `writeLParagraphs`, `writer/arxml_writer.py:1803-1809` -/
def writeLParagraphs_MultiLanguageParagraph : WB :=
  /- 1805 -/ .each k!"l1" [] .plain [⟨[], [], k!"writeLParagraphs_MultiLanguageParagraph_L1805"⟩] .skip <|
  .nil

/-- `writeDocumentationBlock`, `writer/arxml_writer.py:1856-1871` (the block at line 1813) -/
def writeDocumentationBlock_DEF_DocumentationBlock_L1813 : WB :=
  /- 1813 -/ .wrap .always k!"P" (
    /- 1814 -/ .attr k!"T" .raw k!"timestamp" <|
    /- 1814 -/ .attr k!"UUID" .raw k!"uuid" <|
    /- 1815 -/ writeLParagraphs_MultiLanguageParagraph.app <|
    .nil) <|
  .nil

/-- `writeMlFigureLGraphics`, `writer/arxml_writer.py:1833-1839` -/
def writeMlFigureLGraphics_MlFigure : WB :=
  /- 1836 -/ .each k!"lGraphics" [] .plain [⟨[], [], k!"setMlFormula_FORMULA_MlFormula_L1893"⟩] .skip <|
  .nil

/-- `writeMlFigure`, `writer/arxml_writer.py:1847-1849` -/
def writeMlFigure_MlFigure : WB :=
  /- 1848 -/ writePaginateable_Paginateable.app <|
  /- 1849 -/ writeMlFigureLGraphics_MlFigure.app <|
  .nil

/-- `writeDocumentationBlock`, `writer/arxml_writer.py:1856-1871` (the block at line 1853) -/
def writeDocumentationBlock_DEF_DocumentationBlock_L1853 : WB :=
  /- 1853 -/ .wrap .always k!"FIGURE" (
    /- 1854 -/ writeMlFigure_MlFigure.app <|
    .nil) <|
  .nil

/-- `writeDocumentationBlock`, `writer/arxml_writer.py:1856-1871` -/
def writeDocumentationBlock_BLUEPRINT_CONDITION_DocumentationBlock : WB :=
  /- 1858 -/ .wrap .always k!"BLUEPRINT-CONDITION" (
    /- 1859 -/ .attr k!"T" .raw k!"timestamp" <|
    /- 1859 -/ .attr k!"UUID" .raw k!"uuid" <|
    /- 1860 -/ .each k!"msrQueryP2" [] .plain [⟨[], [], k!"setMsrQueryP2_MsrQueryP2"⟩] .skip <|
    /- 1813 -/ .each k!"ps" [] .plain [⟨[], [], k!"writeDocumentationBlock_DEF_DocumentationBlock_L1813"⟩] .skip <|
    /- 1862 -/ .each k!"verbatim" [] .plain [⟨[], [], k!"setMultiLanguageVerbatim_VERBATIM_MultiLanguageVerbatim"⟩] .skip <|
    /- 1864 -/ .each k!"lists" [] .plain [⟨[], [], k!"setListElement_LIST_ARList"⟩] .skip <|
    /- 1865 -/ .each k!"defList" [] .plain [⟨[], [], k!"setDefList_DefList"⟩] .skip <|
    /- 1866 -/ .each k!"labeledList" [] .plain [⟨[], [], k!"setLabeledList_LabeledList"⟩] .skip <|
    /- 1867 -/ .each k!"formula" [] .plain [⟨[], [], k!"setMlFormula_FORMULA_MlFormula"⟩] .skip <|
    /- 1853 -/ .each k!"figures" [] .plain [⟨[], [], k!"writeDocumentationBlock_DEF_DocumentationBlock_L1853"⟩] .skip <|
    /- 1869 -/ .each k!"note" [] .plain [⟨[], [], k!"setNote_Note"⟩] .skip <|
    /- 1870 -/ .each k!"trace" [] .plain [⟨[], [], k!"setTraceableText_TRACE_TraceableText"⟩] .skip <|
    /- 1871 -/ .each k!"structuredReq" [] .plain [⟨[], [], k!"setStructuredReq_StructuredReq"⟩] .skip <|
    .nil) <|
  .nil

/-- `writeDocumentationBlock`, `writer/arxml_writer.py:1856-1871` -/
def writeDocumentationBlock_CONFLICTS_DocumentationBlock : WB :=
  /- 1858 -/ .wrap .always k!"CONFLICTS" (
    /- 1859 -/ .attr k!"T" .raw k!"timestamp" <|
    /- 1859 -/ .attr k!"UUID" .raw k!"uuid" <|
    /- 1860 -/ .each k!"msrQueryP2" [] .plain [⟨[], [], k!"setMsrQueryP2_MsrQueryP2"⟩] .skip <|
    /- 1813 -/ .each k!"ps" [] .plain [⟨[], [], k!"writeDocumentationBlock_DEF_DocumentationBlock_L1813"⟩] .skip <|
    /- 1862 -/ .each k!"verbatim" [] .plain [⟨[], [], k!"setMultiLanguageVerbatim_VERBATIM_MultiLanguageVerbatim"⟩] .skip <|
    /- 1864 -/ .each k!"lists" [] .plain [⟨[], [], k!"setListElement_LIST_ARList"⟩] .skip <|
    /- 1865 -/ .each k!"defList" [] .plain [⟨[], [], k!"setDefList_DefList"⟩] .skip <|
    /- 1866 -/ .each k!"labeledList" [] .plain [⟨[], [], k!"setLabeledList_LabeledList"⟩] .skip <|
    /- 1867 -/ .each k!"formula" [] .plain [⟨[], [], k!"setMlFormula_FORMULA_MlFormula"⟩] .skip <|
    /- 1853 -/ .each k!"figures" [] .plain [⟨[], [], k!"writeDocumentationBlock_DEF_DocumentationBlock_L1853"⟩] .skip <|
    /- 1869 -/ .each k!"note" [] .plain [⟨[], [], k!"setNote_Note"⟩] .skip <|
    /- 1870 -/ .each k!"trace" [] .plain [⟨[], [], k!"setTraceableText_TRACE_TraceableText"⟩] .skip <|
    /- 1871 -/ .each k!"structuredReq" [] .plain [⟨[], [], k!"setStructuredReq_StructuredReq"⟩] .skip <|
    .nil) <|
  .nil

/-- `writeDocumentationBlock`, `writer/arxml_writer.py:1856-1871` -/
def writeDocumentationBlock_DEF_DocumentationBlock : WB :=
  /- 1858 -/ .wrap .always k!"DEF" (
    /- 1859 -/ .attr k!"T" .raw k!"timestamp" <|
    /- 1859 -/ .attr k!"UUID" .raw k!"uuid" <|
    /- 1860 -/ .each k!"msrQueryP2" [] .plain [⟨[], [], k!"setMsrQueryP2_MsrQueryP2"⟩] .skip <|
    /- 1813 -/ .each k!"ps" [] .plain [⟨[], [], k!"writeDocumentationBlock_DEF_DocumentationBlock_L1813"⟩] .skip <|
    /- 1862 -/ .each k!"verbatim" [] .plain [⟨[], [], k!"setMultiLanguageVerbatim_VERBATIM_MultiLanguageVerbatim"⟩] .skip <|
    /- 1864 -/ .each k!"lists" [] .plain [⟨[], [], k!"setListElement_LIST_ARList"⟩] .skip <|
    /- 1865 -/ .each k!"defList" [] .plain [⟨[], [], k!"setDefList_DefList"⟩] .skip <|
    /- 1866 -/ .each k!"labeledList" [] .plain [⟨[], [], k!"setLabeledList_LabeledList"⟩] .skip <|
    /- 1867 -/ .each k!"formula" [] .plain [⟨[], [], k!"setMlFormula_FORMULA_MlFormula"⟩] .skip <|
    /- 1853 -/ .each k!"figures" [] .plain [⟨[], [], k!"writeDocumentationBlock_DEF_DocumentationBlock_L1853"⟩] .skip <|
    /- 1869 -/ .each k!"note" [] .plain [⟨[], [], k!"setNote_Note"⟩] .skip <|
    /- 1870 -/ .each k!"trace" [] .plain [⟨[], [], k!"setTraceableText_TRACE_TraceableText"⟩] .skip <|
    /- 1871 -/ .each k!"structuredReq" [] .plain [⟨[], [], k!"setStructuredReq_StructuredReq"⟩] .skip <|
    .nil) <|
  .nil

/-- `writeDocumentationBlock`, `writer/arxml_writer.py:1856-1871` -/
def writeDocumentationBlock_DEPENDENCIES_DocumentationBlock : WB :=
  /- 1858 -/ .wrap .always k!"DEPENDENCIES" (
    /- 1859 -/ .attr k!"T" .raw k!"timestamp" <|
    /- 1859 -/ .attr k!"UUID" .raw k!"uuid" <|
    /- 1860 -/ .each k!"msrQueryP2" [] .plain [⟨[], [], k!"setMsrQueryP2_MsrQueryP2"⟩] .skip <|
    /- 1813 -/ .each k!"ps" [] .plain [⟨[], [], k!"writeDocumentationBlock_DEF_DocumentationBlock_L1813"⟩] .skip <|
    /- 1862 -/ .each k!"verbatim" [] .plain [⟨[], [], k!"setMultiLanguageVerbatim_VERBATIM_MultiLanguageVerbatim"⟩] .skip <|
    /- 1864 -/ .each k!"lists" [] .plain [⟨[], [], k!"setListElement_LIST_ARList"⟩] .skip <|
    /- 1865 -/ .each k!"defList" [] .plain [⟨[], [], k!"setDefList_DefList"⟩] .skip <|
    /- 1866 -/ .each k!"labeledList" [] .plain [⟨[], [], k!"setLabeledList_LabeledList"⟩] .skip <|
    /- 1867 -/ .each k!"formula" [] .plain [⟨[], [], k!"setMlFormula_FORMULA_MlFormula"⟩] .skip <|
    /- 1853 -/ .each k!"figures" [] .plain [⟨[], [], k!"writeDocumentationBlock_DEF_DocumentationBlock_L1853"⟩] .skip <|
    /- 1869 -/ .each k!"note" [] .plain [⟨[], [], k!"setNote_Note"⟩] .skip <|
    /- 1870 -/ .each k!"trace" [] .plain [⟨[], [], k!"setTraceableText_TRACE_TraceableText"⟩] .skip <|
    /- 1871 -/ .each k!"structuredReq" [] .plain [⟨[], [], k!"setStructuredReq_StructuredReq"⟩] .skip <|
    .nil) <|
  .nil

/-- `writeDocumentationBlock`, `writer/arxml_writer.py:1856-1871` -/
def writeDocumentationBlock_DESCRIPTION_DocumentationBlock : WB :=
  /- 1858 -/ .wrap .always k!"DESCRIPTION" (
    /- 1859 -/ .attr k!"T" .raw k!"timestamp" <|
    /- 1859 -/ .attr k!"UUID" .raw k!"uuid" <|
    /- 1860 -/ .each k!"msrQueryP2" [] .plain [⟨[], [], k!"setMsrQueryP2_MsrQueryP2"⟩] .skip <|
    /- 1813 -/ .each k!"ps" [] .plain [⟨[], [], k!"writeDocumentationBlock_DEF_DocumentationBlock_L1813"⟩] .skip <|
    /- 1862 -/ .each k!"verbatim" [] .plain [⟨[], [], k!"setMultiLanguageVerbatim_VERBATIM_MultiLanguageVerbatim"⟩] .skip <|
    /- 1864 -/ .each k!"lists" [] .plain [⟨[], [], k!"setListElement_LIST_ARList"⟩] .skip <|
    /- 1865 -/ .each k!"defList" [] .plain [⟨[], [], k!"setDefList_DefList"⟩] .skip <|
    /- 1866 -/ .each k!"labeledList" [] .plain [⟨[], [], k!"setLabeledList_LabeledList"⟩] .skip <|
    /- 1867 -/ .each k!"formula" [] .plain [⟨[], [], k!"setMlFormula_FORMULA_MlFormula"⟩] .skip <|
    /- 1853 -/ .each k!"figures" [] .plain [⟨[], [], k!"writeDocumentationBlock_DEF_DocumentationBlock_L1853"⟩] .skip <|
    /- 1869 -/ .each k!"note" [] .plain [⟨[], [], k!"setNote_Note"⟩] .skip <|
    /- 1870 -/ .each k!"trace" [] .plain [⟨[], [], k!"setTraceableText_TRACE_TraceableText"⟩] .skip <|
    /- 1871 -/ .each k!"structuredReq" [] .plain [⟨[], [], k!"setStructuredReq_StructuredReq"⟩] .skip <|
    .nil) <|
  .nil

/-- `writeDocumentationBlock`, `writer/arxml_writer.py:1856-1871` -/
def writeDocumentationBlock_DOCUMENTATION_BLOCK_DocumentationBlock : WB :=
  /- 1858 -/ .wrap .always k!"DOCUMENTATION-BLOCK" (
    /- 1859 -/ .attr k!"T" .raw k!"timestamp" <|
    /- 1859 -/ .attr k!"UUID" .raw k!"uuid" <|
    /- 1860 -/ .each k!"msrQueryP2" [] .plain [⟨[], [], k!"setMsrQueryP2_MsrQueryP2"⟩] .skip <|
    /- 1813 -/ .each k!"ps" [] .plain [⟨[], [], k!"writeDocumentationBlock_DEF_DocumentationBlock_L1813"⟩] .skip <|
    /- 1862 -/ .each k!"verbatim" [] .plain [⟨[], [], k!"setMultiLanguageVerbatim_VERBATIM_MultiLanguageVerbatim"⟩] .skip <|
    /- 1864 -/ .each k!"lists" [] .plain [⟨[], [], k!"setListElement_LIST_ARList"⟩] .skip <|
    /- 1865 -/ .each k!"defList" [] .plain [⟨[], [], k!"setDefList_DefList"⟩] .skip <|
    /- 1866 -/ .each k!"labeledList" [] .plain [⟨[], [], k!"setLabeledList_LabeledList"⟩] .skip <|
    /- 1867 -/ .each k!"formula" [] .plain [⟨[], [], k!"setMlFormula_FORMULA_MlFormula"⟩] .skip <|
    /- 1853 -/ .each k!"figures" [] .plain [⟨[], [], k!"writeDocumentationBlock_DEF_DocumentationBlock_L1853"⟩] .skip <|
    /- 1869 -/ .each k!"note" [] .plain [⟨[], [], k!"setNote_Note"⟩] .skip <|
    /- 1870 -/ .each k!"trace" [] .plain [⟨[], [], k!"setTraceableText_TRACE_TraceableText"⟩] .skip <|
    /- 1871 -/ .each k!"structuredReq" [] .plain [⟨[], [], k!"setStructuredReq_StructuredReq"⟩] .skip <|
    .nil) <|
  .nil

/-- `writeDocumentationBlock`, `writer/arxml_writer.py:1856-1871` -/
def writeDocumentationBlock_INTRODUCTION_DocumentationBlock : WB :=
  /- 1858 -/ .wrap .always k!"INTRODUCTION" (
    /- 1859 -/ .attr k!"T" .raw k!"timestamp" <|
    /- 1859 -/ .attr k!"UUID" .raw k!"uuid" <|
    /- 1860 -/ .each k!"msrQueryP2" [] .plain [⟨[], [], k!"setMsrQueryP2_MsrQueryP2"⟩] .skip <|
    /- 1813 -/ .each k!"ps" [] .plain [⟨[], [], k!"writeDocumentationBlock_DEF_DocumentationBlock_L1813"⟩] .skip <|
    /- 1862 -/ .each k!"verbatim" [] .plain [⟨[], [], k!"setMultiLanguageVerbatim_VERBATIM_MultiLanguageVerbatim"⟩] .skip <|
    /- 1864 -/ .each k!"lists" [] .plain [⟨[], [], k!"setListElement_LIST_ARList"⟩] .skip <|
    /- 1865 -/ .each k!"defList" [] .plain [⟨[], [], k!"setDefList_DefList"⟩] .skip <|
    /- 1866 -/ .each k!"labeledList" [] .plain [⟨[], [], k!"setLabeledList_LabeledList"⟩] .skip <|
    /- 1867 -/ .each k!"formula" [] .plain [⟨[], [], k!"setMlFormula_FORMULA_MlFormula"⟩] .skip <|
    /- 1853 -/ .each k!"figures" [] .plain [⟨[], [], k!"writeDocumentationBlock_DEF_DocumentationBlock_L1853"⟩] .skip <|
    /- 1869 -/ .each k!"note" [] .plain [⟨[], [], k!"setNote_Note"⟩] .skip <|
    /- 1870 -/ .each k!"trace" [] .plain [⟨[], [], k!"setTraceableText_TRACE_TraceableText"⟩] .skip <|
    /- 1871 -/ .each k!"structuredReq" [] .plain [⟨[], [], k!"setStructuredReq_StructuredReq"⟩] .skip <|
    .nil) <|
  .nil

/-- `writeDocumentationBlock`, `writer/arxml_writer.py:1856-1871` -/
def writeDocumentationBlock_ITEM_CONTENTS_DocumentationBlock : WB :=
  /- 1858 -/ .wrap .always k!"ITEM-CONTENTS" (
    /- 1859 -/ .attr k!"T" .raw k!"timestamp" <|
    /- 1859 -/ .attr k!"UUID" .raw k!"uuid" <|
    /- 1860 -/ .each k!"msrQueryP2" [] .plain [⟨[], [], k!"setMsrQueryP2_MsrQueryP2"⟩] .skip <|
    /- 1813 -/ .each k!"ps" [] .plain [⟨[], [], k!"writeDocumentationBlock_DEF_DocumentationBlock_L1813"⟩] .skip <|
    /- 1862 -/ .each k!"verbatim" [] .plain [⟨[], [], k!"setMultiLanguageVerbatim_VERBATIM_MultiLanguageVerbatim"⟩] .skip <|
    /- 1864 -/ .each k!"lists" [] .plain [⟨[], [], k!"setListElement_LIST_ARList"⟩] .skip <|
    /- 1865 -/ .each k!"defList" [] .plain [⟨[], [], k!"setDefList_DefList"⟩] .skip <|
    /- 1866 -/ .each k!"labeledList" [] .plain [⟨[], [], k!"setLabeledList_LabeledList"⟩] .skip <|
    /- 1867 -/ .each k!"formula" [] .plain [⟨[], [], k!"setMlFormula_FORMULA_MlFormula"⟩] .skip <|
    /- 1853 -/ .each k!"figures" [] .plain [⟨[], [], k!"writeDocumentationBlock_DEF_DocumentationBlock_L1853"⟩] .skip <|
    /- 1869 -/ .each k!"note" [] .plain [⟨[], [], k!"setNote_Note"⟩] .skip <|
    /- 1870 -/ .each k!"trace" [] .plain [⟨[], [], k!"setTraceableText_TRACE_TraceableText"⟩] .skip <|
    /- 1871 -/ .each k!"structuredReq" [] .plain [⟨[], [], k!"setStructuredReq_StructuredReq"⟩] .skip <|
    .nil) <|
  .nil

/-- `writeDocumentationBlock`, `writer/arxml_writer.py:1856-1871` -/
def writeDocumentationBlock_ITEM_DocumentationBlock : WB :=
  /- 1858 -/ .wrap .always k!"ITEM" (
    /- 1859 -/ .attr k!"T" .raw k!"timestamp" <|
    /- 1859 -/ .attr k!"UUID" .raw k!"uuid" <|
    /- 1860 -/ .each k!"msrQueryP2" [] .plain [⟨[], [], k!"setMsrQueryP2_MsrQueryP2"⟩] .skip <|
    /- 1813 -/ .each k!"ps" [] .plain [⟨[], [], k!"writeDocumentationBlock_DEF_DocumentationBlock_L1813"⟩] .skip <|
    /- 1862 -/ .each k!"verbatim" [] .plain [⟨[], [], k!"setMultiLanguageVerbatim_VERBATIM_MultiLanguageVerbatim"⟩] .skip <|
    /- 1864 -/ .each k!"lists" [] .plain [⟨[], [], k!"setListElement_LIST_ARList"⟩] .skip <|
    /- 1865 -/ .each k!"defList" [] .plain [⟨[], [], k!"setDefList_DefList"⟩] .skip <|
    /- 1866 -/ .each k!"labeledList" [] .plain [⟨[], [], k!"setLabeledList_LabeledList"⟩] .skip <|
    /- 1867 -/ .each k!"formula" [] .plain [⟨[], [], k!"setMlFormula_FORMULA_MlFormula"⟩] .skip <|
    /- 1853 -/ .each k!"figures" [] .plain [⟨[], [], k!"writeDocumentationBlock_DEF_DocumentationBlock_L1853"⟩] .skip <|
    /- 1869 -/ .each k!"note" [] .plain [⟨[], [], k!"setNote_Note"⟩] .skip <|
    /- 1870 -/ .each k!"trace" [] .plain [⟨[], [], k!"setTraceableText_TRACE_TraceableText"⟩] .skip <|
    /- 1871 -/ .each k!"structuredReq" [] .plain [⟨[], [], k!"setStructuredReq_StructuredReq"⟩] .skip <|
    .nil) <|
  .nil

/-- `writeDocumentationBlock`, `writer/arxml_writer.py:1856-1871` -/
def writeDocumentationBlock_MSR_QUERY_RESULT_P2_DocumentationBlock : WB :=
  /- 1858 -/ .wrap .always k!"MSR-QUERY-RESULT-P2" (
    /- 1859 -/ .attr k!"T" .raw k!"timestamp" <|
    /- 1859 -/ .attr k!"UUID" .raw k!"uuid" <|
    /- 1860 -/ .each k!"msrQueryP2" [] .plain [⟨[], [], k!"setMsrQueryP2_MsrQueryP2"⟩] .skip <|
    /- 1813 -/ .each k!"ps" [] .plain [⟨[], [], k!"writeDocumentationBlock_DEF_DocumentationBlock_L1813"⟩] .skip <|
    /- 1862 -/ .each k!"verbatim" [] .plain [⟨[], [], k!"setMultiLanguageVerbatim_VERBATIM_MultiLanguageVerbatim"⟩] .skip <|
    /- 1864 -/ .each k!"lists" [] .plain [⟨[], [], k!"setListElement_LIST_ARList"⟩] .skip <|
    /- 1865 -/ .each k!"defList" [] .plain [⟨[], [], k!"setDefList_DefList"⟩] .skip <|
    /- 1866 -/ .each k!"labeledList" [] .plain [⟨[], [], k!"setLabeledList_LabeledList"⟩] .skip <|
    /- 1867 -/ .each k!"formula" [] .plain [⟨[], [], k!"setMlFormula_FORMULA_MlFormula"⟩] .skip <|
    /- 1853 -/ .each k!"figures" [] .plain [⟨[], [], k!"writeDocumentationBlock_DEF_DocumentationBlock_L1853"⟩] .skip <|
    /- 1869 -/ .each k!"note" [] .plain [⟨[], [], k!"setNote_Note"⟩] .skip <|
    /- 1870 -/ .each k!"trace" [] .plain [⟨[], [], k!"setTraceableText_TRACE_TraceableText"⟩] .skip <|
    /- 1871 -/ .each k!"structuredReq" [] .plain [⟨[], [], k!"setStructuredReq_StructuredReq"⟩] .skip <|
    .nil) <|
  .nil

/-- `writeDocumentationBlock`, `writer/arxml_writer.py:1856-1871` -/
def writeDocumentationBlock_NOTE_TEXT_DocumentationBlock : WB :=
  /- 1858 -/ .wrap .always k!"NOTE-TEXT" (
    /- 1859 -/ .attr k!"T" .raw k!"timestamp" <|
    /- 1859 -/ .attr k!"UUID" .raw k!"uuid" <|
    /- 1860 -/ .each k!"msrQueryP2" [] .plain [⟨[], [], k!"setMsrQueryP2_MsrQueryP2"⟩] .skip <|
    /- 1813 -/ .each k!"ps" [] .plain [⟨[], [], k!"writeDocumentationBlock_DEF_DocumentationBlock_L1813"⟩] .skip <|
    /- 1862 -/ .each k!"verbatim" [] .plain [⟨[], [], k!"setMultiLanguageVerbatim_VERBATIM_MultiLanguageVerbatim"⟩] .skip <|
    /- 1864 -/ .each k!"lists" [] .plain [⟨[], [], k!"setListElement_LIST_ARList"⟩] .skip <|
    /- 1865 -/ .each k!"defList" [] .plain [⟨[], [], k!"setDefList_DefList"⟩] .skip <|
    /- 1866 -/ .each k!"labeledList" [] .plain [⟨[], [], k!"setLabeledList_LabeledList"⟩] .skip <|
    /- 1867 -/ .each k!"formula" [] .plain [⟨[], [], k!"setMlFormula_FORMULA_MlFormula"⟩] .skip <|
    /- 1853 -/ .each k!"figures" [] .plain [⟨[], [], k!"writeDocumentationBlock_DEF_DocumentationBlock_L1853"⟩] .skip <|
    /- 1869 -/ .each k!"note" [] .plain [⟨[], [], k!"setNote_Note"⟩] .skip <|
    /- 1870 -/ .each k!"trace" [] .plain [⟨[], [], k!"setTraceableText_TRACE_TraceableText"⟩] .skip <|
    /- 1871 -/ .each k!"structuredReq" [] .plain [⟨[], [], k!"setStructuredReq_StructuredReq"⟩] .skip <|
    .nil) <|
  .nil

/-- `writeDocumentationBlock`, `writer/arxml_writer.py:1856-1871` -/
def writeDocumentationBlock_RATIONALE_DocumentationBlock : WB :=
  /- 1858 -/ .wrap .always k!"RATIONALE" (
    /- 1859 -/ .attr k!"T" .raw k!"timestamp" <|
    /- 1859 -/ .attr k!"UUID" .raw k!"uuid" <|
    /- 1860 -/ .each k!"msrQueryP2" [] .plain [⟨[], [], k!"setMsrQueryP2_MsrQueryP2"⟩] .skip <|
    /- 1813 -/ .each k!"ps" [] .plain [⟨[], [], k!"writeDocumentationBlock_DEF_DocumentationBlock_L1813"⟩] .skip <|
    /- 1862 -/ .each k!"verbatim" [] .plain [⟨[], [], k!"setMultiLanguageVerbatim_VERBATIM_MultiLanguageVerbatim"⟩] .skip <|
    /- 1864 -/ .each k!"lists" [] .plain [⟨[], [], k!"setListElement_LIST_ARList"⟩] .skip <|
    /- 1865 -/ .each k!"defList" [] .plain [⟨[], [], k!"setDefList_DefList"⟩] .skip <|
    /- 1866 -/ .each k!"labeledList" [] .plain [⟨[], [], k!"setLabeledList_LabeledList"⟩] .skip <|
    /- 1867 -/ .each k!"formula" [] .plain [⟨[], [], k!"setMlFormula_FORMULA_MlFormula"⟩] .skip <|
    /- 1853 -/ .each k!"figures" [] .plain [⟨[], [], k!"writeDocumentationBlock_DEF_DocumentationBlock_L1853"⟩] .skip <|
    /- 1869 -/ .each k!"note" [] .plain [⟨[], [], k!"setNote_Note"⟩] .skip <|
    /- 1870 -/ .each k!"trace" [] .plain [⟨[], [], k!"setTraceableText_TRACE_TraceableText"⟩] .skip <|
    /- 1871 -/ .each k!"structuredReq" [] .plain [⟨[], [], k!"setStructuredReq_StructuredReq"⟩] .skip <|
    .nil) <|
  .nil

/-- `writeDocumentationBlock`, `writer/arxml_writer.py:1856-1871` -/
def writeDocumentationBlock_REMARK_DocumentationBlock : WB :=
  /- 1858 -/ .wrap .always k!"REMARK" (
    /- 1859 -/ .attr k!"T" .raw k!"timestamp" <|
    /- 1859 -/ .attr k!"UUID" .raw k!"uuid" <|
    /- 1860 -/ .each k!"msrQueryP2" [] .plain [⟨[], [], k!"setMsrQueryP2_MsrQueryP2"⟩] .skip <|
    /- 1813 -/ .each k!"ps" [] .plain [⟨[], [], k!"writeDocumentationBlock_DEF_DocumentationBlock_L1813"⟩] .skip <|
    /- 1862 -/ .each k!"verbatim" [] .plain [⟨[], [], k!"setMultiLanguageVerbatim_VERBATIM_MultiLanguageVerbatim"⟩] .skip <|
    /- 1864 -/ .each k!"lists" [] .plain [⟨[], [], k!"setListElement_LIST_ARList"⟩] .skip <|
    /- 1865 -/ .each k!"defList" [] .plain [⟨[], [], k!"setDefList_DefList"⟩] .skip <|
    /- 1866 -/ .each k!"labeledList" [] .plain [⟨[], [], k!"setLabeledList_LabeledList"⟩] .skip <|
    /- 1867 -/ .each k!"formula" [] .plain [⟨[], [], k!"setMlFormula_FORMULA_MlFormula"⟩] .skip <|
    /- 1853 -/ .each k!"figures" [] .plain [⟨[], [], k!"writeDocumentationBlock_DEF_DocumentationBlock_L1853"⟩] .skip <|
    /- 1869 -/ .each k!"note" [] .plain [⟨[], [], k!"setNote_Note"⟩] .skip <|
    /- 1870 -/ .each k!"trace" [] .plain [⟨[], [], k!"setTraceableText_TRACE_TraceableText"⟩] .skip <|
    /- 1871 -/ .each k!"structuredReq" [] .plain [⟨[], [], k!"setStructuredReq_StructuredReq"⟩] .skip <|
    .nil) <|
  .nil

/-- `writeDocumentationBlock`, `writer/arxml_writer.py:1856-1871` -/
def writeDocumentationBlock_SUPPORTING_MATERIAL_DocumentationBlock : WB :=
  /- 1858 -/ .wrap .always k!"SUPPORTING-MATERIAL" (
    /- 1859 -/ .attr k!"T" .raw k!"timestamp" <|
    /- 1859 -/ .attr k!"UUID" .raw k!"uuid" <|
    /- 1860 -/ .each k!"msrQueryP2" [] .plain [⟨[], [], k!"setMsrQueryP2_MsrQueryP2"⟩] .skip <|
    /- 1813 -/ .each k!"ps" [] .plain [⟨[], [], k!"writeDocumentationBlock_DEF_DocumentationBlock_L1813"⟩] .skip <|
    /- 1862 -/ .each k!"verbatim" [] .plain [⟨[], [], k!"setMultiLanguageVerbatim_VERBATIM_MultiLanguageVerbatim"⟩] .skip <|
    /- 1864 -/ .each k!"lists" [] .plain [⟨[], [], k!"setListElement_LIST_ARList"⟩] .skip <|
    /- 1865 -/ .each k!"defList" [] .plain [⟨[], [], k!"setDefList_DefList"⟩] .skip <|
    /- 1866 -/ .each k!"labeledList" [] .plain [⟨[], [], k!"setLabeledList_LabeledList"⟩] .skip <|
    /- 1867 -/ .each k!"formula" [] .plain [⟨[], [], k!"setMlFormula_FORMULA_MlFormula"⟩] .skip <|
    /- 1853 -/ .each k!"figures" [] .plain [⟨[], [], k!"writeDocumentationBlock_DEF_DocumentationBlock_L1853"⟩] .skip <|
    /- 1869 -/ .each k!"note" [] .plain [⟨[], [], k!"setNote_Note"⟩] .skip <|
    /- 1870 -/ .each k!"trace" [] .plain [⟨[], [], k!"setTraceableText_TRACE_TraceableText"⟩] .skip <|
    /- 1871 -/ .each k!"structuredReq" [] .plain [⟨[], [], k!"setStructuredReq_StructuredReq"⟩] .skip <|
    .nil) <|
  .nil

/-- `writeDocumentationBlock`, `writer/arxml_writer.py:1856-1871` -/
def writeDocumentationBlock_TEXT_DocumentationBlock : WB :=
  /- 1858 -/ .wrap .always k!"TEXT" (
    /- 1859 -/ .attr k!"T" .raw k!"timestamp" <|
    /- 1859 -/ .attr k!"UUID" .raw k!"uuid" <|
    /- 1860 -/ .each k!"msrQueryP2" [] .plain [⟨[], [], k!"setMsrQueryP2_MsrQueryP2"⟩] .skip <|
    /- 1813 -/ .each k!"ps" [] .plain [⟨[], [], k!"writeDocumentationBlock_DEF_DocumentationBlock_L1813"⟩] .skip <|
    /- 1862 -/ .each k!"verbatim" [] .plain [⟨[], [], k!"setMultiLanguageVerbatim_VERBATIM_MultiLanguageVerbatim"⟩] .skip <|
    /- 1864 -/ .each k!"lists" [] .plain [⟨[], [], k!"setListElement_LIST_ARList"⟩] .skip <|
    /- 1865 -/ .each k!"defList" [] .plain [⟨[], [], k!"setDefList_DefList"⟩] .skip <|
    /- 1866 -/ .each k!"labeledList" [] .plain [⟨[], [], k!"setLabeledList_LabeledList"⟩] .skip <|
    /- 1867 -/ .each k!"formula" [] .plain [⟨[], [], k!"setMlFormula_FORMULA_MlFormula"⟩] .skip <|
    /- 1853 -/ .each k!"figures" [] .plain [⟨[], [], k!"writeDocumentationBlock_DEF_DocumentationBlock_L1853"⟩] .skip <|
    /- 1869 -/ .each k!"note" [] .plain [⟨[], [], k!"setNote_Note"⟩] .skip <|
    /- 1870 -/ .each k!"trace" [] .plain [⟨[], [], k!"setTraceableText_TRACE_TraceableText"⟩] .skip <|
    /- 1871 -/ .each k!"structuredReq" [] .plain [⟨[], [], k!"setStructuredReq_StructuredReq"⟩] .skip <|
    .nil) <|
  .nil

/-- `writeDocumentationBlock`, `writer/arxml_writer.py:1856-1871` -/
def writeDocumentationBlock_USE_CASE_DocumentationBlock : WB :=
  /- 1858 -/ .wrap .always k!"USE-CASE" (
    /- 1859 -/ .attr k!"T" .raw k!"timestamp" <|
    /- 1859 -/ .attr k!"UUID" .raw k!"uuid" <|
    /- 1860 -/ .each k!"msrQueryP2" [] .plain [⟨[], [], k!"setMsrQueryP2_MsrQueryP2"⟩] .skip <|
    /- 1813 -/ .each k!"ps" [] .plain [⟨[], [], k!"writeDocumentationBlock_DEF_DocumentationBlock_L1813"⟩] .skip <|
    /- 1862 -/ .each k!"verbatim" [] .plain [⟨[], [], k!"setMultiLanguageVerbatim_VERBATIM_MultiLanguageVerbatim"⟩] .skip <|
    /- 1864 -/ .each k!"lists" [] .plain [⟨[], [], k!"setListElement_LIST_ARList"⟩] .skip <|
    /- 1865 -/ .each k!"defList" [] .plain [⟨[], [], k!"setDefList_DefList"⟩] .skip <|
    /- 1866 -/ .each k!"labeledList" [] .plain [⟨[], [], k!"setLabeledList_LabeledList"⟩] .skip <|
    /- 1867 -/ .each k!"formula" [] .plain [⟨[], [], k!"setMlFormula_FORMULA_MlFormula"⟩] .skip <|
    /- 1853 -/ .each k!"figures" [] .plain [⟨[], [], k!"writeDocumentationBlock_DEF_DocumentationBlock_L1853"⟩] .skip <|
    /- 1869 -/ .each k!"note" [] .plain [⟨[], [], k!"setNote_Note"⟩] .skip <|
    /- 1870 -/ .each k!"trace" [] .plain [⟨[], [], k!"setTraceableText_TRACE_TraceableText"⟩] .skip <|
    /- 1871 -/ .each k!"structuredReq" [] .plain [⟨[], [], k!"setStructuredReq_StructuredReq"⟩] .skip <|
    .nil) <|
  .nil

/-- `writeDocumentationContext`, `writer/arxml_writer.py:1584-1589` -/
def writeDocumentationContext_DocumentationContext : WB :=
  /- 1585 -/ writeMultilanguageReferrable_ARPackage.app <|
  /- 1588 -/ .each k!"featureIRef" [] .plain [⟨[], [], k!"setAnyInstanceRef_FEATURE_IREF_AnyInstanceRef"⟩] .skip <|
  /- 1589 -/ .prim k!"IDENTIFIABLE-REF" .ref k!"identifiableRef" <|
  .nil

/-- `writeDocumentation`, `writer/arxml_writer.py:1591-1604` -/
def writeDocumentation_Documentation : WB :=
  /- 1592 -/ .wrap .always k!"DOCUMENTATION" (
    /- 1593 -/ writeARElement_System.app <|
    /- 1596 -/ .wrap (.any [(k!"contexts", [])]) k!"CONTEXTS" (
      /- 1598 -/ .each k!"contexts" [] .plain [⟨[], [], k!"writeDocumentation_Documentation_L1598"⟩] .skip <|
      .nil) <|
    /- 1602 -/ .each k!"documentationContent" [] .plain [⟨[], [], k!"writeDocumentation_Documentation_L1602"⟩] .skip <|
    .nil) <|
  .nil

/-- `writeDocumentation`, `writer/arxml_writer.py:1591-1604` (the block at line 1598) -/
def writeDocumentation_Documentation_L1598 : WB :=
  /- 1598 -/ .wrap .always k!"DOCUMENTATION-CONTEXT" (
    /- 1599 -/ writeDocumentationContext_DocumentationContext.app <|
    .nil) <|
  .nil

/-- `writePredefinedChapter`, `writer/arxml_writer.py:1577-1582` -/
def writePredefinedChapter_PredefinedChapter : WB :=
  /- 1581 -/ .each k!"chapterModel" [] .plain [⟨[], [], k!"writeChapterModel_ChapterModel"⟩] .skip <|
  .nil

/-- `writeDocumentation`, `writer/arxml_writer.py:1591-1604` (the block at line 1602) -/
def writeDocumentation_Documentation_L1602 : WB :=
  /- 1602 -/ .wrap .always k!"DOCUMENTATION-CONTENT" (
    /- 1603 -/ writePredefinedChapter_PredefinedChapter.app <|
    .nil) <|
  .nil

/-- `writeDtcStatusChangeNotificationNeeds`, `writer/arxml_writer.py:3734-3738` -/
def writeDtcStatusChangeNotificationNeeds_DtcStatusChangeNotificationNeeds : WB :=
  /- 3736 -/ .wrap .always k!"DTC-STATUS-CHANGE-NOTIFICATION-NEEDS" (
    /- 3737 -/ writeDiagnosticCapabilityElement_DiagEventDebounceTimeBased.app <|
    /- 3738 -/ .prim k!"DTC-FORMAT-TYPE" .lit k!"dtcFormatType" <|
    .nil) <|
  .nil

/-- `writeDynamicPartAlternative`, `writer/arxml_writer.py:8743-8748` -/
def writeDynamicPartAlternative_DynamicPartAlternative : WB :=
  /- 8745 -/ .wrap .always k!"DYNAMIC-PART-ALTERNATIVE" (
    /- 8746 -/ .prim k!"I-PDU-REF" .ref k!"iPduRef" <|
    /- 8747 -/ .prim k!"INITIAL-DYNAMIC-PART" .lit k!"initialDynamicPart" <|
    /- 8748 -/ .prim k!"SELECTOR-FIELD-CODE" .numerical k!"selectorFieldCode" <|
    .nil) <|
  .nil

/-- `writeDynamicPartDynamicPartAlternatives`, `writer/arxml_writer.py:8750-8758` -/
def writeDynamicPartDynamicPartAlternatives_DynamicPart : WB :=
  /- 8753 -/ .wrap (.any [(k!"dynamicPartAlternatives", [])]) k!"DYNAMIC-PART-ALTERNATIVES" (
    /- 8756 -/ .each k!"dynamicPartAlternatives" [] .plain [⟨[(false, [k!"DynamicPartAlternative"])], [], k!"writeDynamicPartAlternative_DynamicPartAlternative"⟩] .unsupported <|
    .nil) <|
  .nil

/-- `writeMultiplexedPartSegmentPositions`, `writer/arxml_writer.py:8730-8738` -/
def writeMultiplexedPartSegmentPositions_MultiplexedPart : WB :=
  /- 8733 -/ .wrap (.any [(k!"segmentPositions", [])]) k!"SEGMENT-POSITIONS" (
    /- 8736 -/ .each k!"segmentPositions" [] .plain [⟨[(false, [k!"SegmentPosition"])], [], k!"writeSegmentPosition_SegmentPosition"⟩] .unsupported <|
    .nil) <|
  .nil

/-- `writeMultiplexedPart`, `writer/arxml_writer.py:8740-8741` -/
def writeMultiplexedPart_MultiplexedPart : WB :=
  /- 8741 -/ writeMultiplexedPartSegmentPositions_MultiplexedPart.app <|
  .nil

/-- `writeDynamicPart`, `writer/arxml_writer.py:8760-8763` -/
def writeDynamicPart_DynamicPart : WB :=
  /- 8761 -/ .wrap .always k!"DYNAMIC-PART" (
    /- 8762 -/ writeMultiplexedPart_MultiplexedPart.app <|
    /- 8763 -/ writeDynamicPartDynamicPartAlternatives_DynamicPart.app <|
    .nil) <|
  .nil

/-- `writeE2EProfileCompatibilityProps`, `writer/arxml_writer.py:9306-9310` -/
def writeE2EProfileCompatibilityProps_E2EProfileCompatibilityProps : WB :=
  /- 9308 -/ .wrap .always k!"E-2-E-PROFILE-COMPATIBILITY-PROPS" (
    /- 9309 -/ writeIdentifiable_ARPackage.app <|
    /- 9310 -/ .prim k!"TRANSIT-TO-INVALID-EXTENDED" .lit k!"transitToInvalidExtended" <|
    .nil) <|
  .nil

/-- `writeEOCExecutableEntityRef`, `writer/arxml_writer.py:5705-5708` -/
def writeEOCExecutableEntityRef_EOCExecutableEntityRef : WB :=
  /- 5706 -/ .wrap .always k!"EOC-EXECUTABLE-ENTITY-REF" (
    /- 5707 -/ writeIdentifiable_ARPackage.app <|
    /- 5701 -/ .wrap (.any [(k!"successor_refs", [])]) k!"SUCCESSOR-REFS" (
      /- 5703 -/ .prim k!"SUCCESSOR-REF" .ref k!"successor_refs" <|
      .nil) <|
    .nil) <|
  .nil

/-- `writeEcuAbstractionSwComponentType`, `writer/arxml_writer.py:5514-5518` -/
def writeEcuAbstractionSwComponentType_EcuAbstractionSwComponentType : WB :=
  /- 5516 -/ .wrap .always k!"ECU-ABSTRACTION-SW-COMPONENT-TYPE" (
    /- 5517 -/ writeAtomicSwComponentType_AtomicSwComponentType.app <|
    /- 3994 -/ .wrap (.any [(k!"hardwareElementRefs", [])]) k!"HARDWARE-ELEMENT-REFS" (
      /- 3996 -/ .prim k!"HARDWARE-ELEMENT-REF" .ref k!"hardwareElementRefs" <|
      .nil) <|
    .nil) <|
  .nil

/-- `writeEcuInstanceAssociatedComIPduGroupRefs`, `writer/arxml_writer.py:7792-7797` -/
def writeEcuInstanceAssociatedComIPduGroupRefs_EcuInstance : WB :=
  /- 7795 -/ .wrap (.any [(k!"associatedComIPduGroupRefs", [])]) k!"ASSOCIATED-COM-I-PDU-GROUP-REFS" (
    /- 7797 -/ .prim k!"ASSOCIATED-COM-I-PDU-GROUP-REF" .ref k!"associatedComIPduGroupRefs" <|
    .nil) <|
  .nil

/-- `writeEcuInstanceAssociatedConsumedProvidedServiceInstanceGroupRefs`, `writer/arxml_writer.py:7799-7804` -/
def writeEcuInstanceAssociatedConsumedProvidedServiceInstanceGroupRefs_EcuInstance : WB :=
  /- 7802 -/ .wrap (.any [(k!"associatedConsumedProvidedServiceInstanceGroupRefs", [])]) k!"ASSOCIATED-CONSUMED-PROVIDED-SERVICE-INSTANCE-GROUP-REFS" (
    /- 7804 -/ .prim k!"ASSOCIATED-CONSUMED-PROVIDED-SERVICE-INSTANCE-GROUP-REF" .ref k!"associatedConsumedProvidedServiceInstanceGroupRefs" <|
    .nil) <|
  .nil

/-- `writeEcuInstanceAssociatedPdurIPduGroupRefs`, `writer/arxml_writer.py:7806-7811` -/
def writeEcuInstanceAssociatedPdurIPduGroupRefs_EcuInstance : WB :=
  /- 7809 -/ .wrap (.any [(k!"associatedPdurIPduGroupRefs", [])]) k!"ASSOCIATED-PDUR-I-PDU-GROUP-REFS" (
    /- 7811 -/ .prim k!"ASSOCIATED-PDUR-I-PDU-GROUP-REF" .ref k!"associatedPdurIPduGroupRefs" <|
    .nil) <|
  .nil

/-- `writeEcuInstanceCommControllers`, `writer/arxml_writer.py:7725-7739` -/
def writeEcuInstanceCommControllers_EcuInstance : WB :=
  /- 7728 -/ .wrap (.any [(k!"elements", [k!"CommunicationController"])]) k!"COMM-CONTROLLERS" (
    /- 7731 -/ .each k!"elements" [k!"CommunicationController"] .sorted [⟨[(false, [k!"CanCommunicationController"])], [], k!"writeCanCommunicationController_CanCommunicationController"⟩,
      ⟨[(false, [k!"EthernetCommunicationController"])], [k!"CanCommunicationController"], k!"writeEthernetCommunicationController_EthernetCommunicationController"⟩,
      ⟨[(false, [k!"LinMaster"])], [k!"CanCommunicationController", k!"EthernetCommunicationController"], k!"writeLinMaster_LinMaster"⟩,
      ⟨[(false, [k!"FlexrayCommunicationController"])], [k!"CanCommunicationController", k!"EthernetCommunicationController", k!"LinMaster"], k!"writeFlexrayCommunicationController_FlexrayCommunicationController"⟩] .unsupported <|
    .nil) <|
  .nil

/-- `writeEcuInstanceConnectors`, `writer/arxml_writer.py:7772-7790` -/
def writeEcuInstanceConnectors_EcuInstance : WB :=
  /- 7775 -/ .wrap (.any [(k!"elements", [k!"CommunicationConnector"])]) k!"CONNECTORS" (
    /- 7778 -/ .each k!"elements" [k!"CommunicationConnector"] .sorted [⟨[(false, [k!"CanCommunicationConnector"])], [], k!"writeEcuInstanceConnectors_EcuInstance_L7778"⟩,
      ⟨[(false, [k!"EthernetCommunicationConnector"])], [k!"CanCommunicationConnector"], k!"writeEcuInstanceConnectors_EcuInstance_L7781"⟩,
      ⟨[(false, [k!"LinCommunicationConnector"])], [k!"CanCommunicationConnector", k!"EthernetCommunicationConnector"], k!"writeEcuInstanceConnectors_EcuInstance_L7784"⟩,
      ⟨[(false, [k!"FlexrayCommunicationConnector"])], [k!"CanCommunicationConnector", k!"EthernetCommunicationConnector", k!"LinCommunicationConnector"], k!"writeEcuInstanceConnectors_EcuInstance_L7787"⟩] .unsupported <|
    .nil) <|
  .nil

/-- `writeEcuInstanceConnectors`, `writer/arxml_writer.py:7772-7790` (the block at line 7778) -/
def writeEcuInstanceConnectors_EcuInstance_L7778 : WB :=
  /- 7778 -/ .wrap .always k!"CAN-COMMUNICATION-CONNECTOR" (
    /- 7779 -/ writeCanCommunicationConnector_CanCommunicationConnector.app <|
    .nil) <|
  .nil

/-- `writeEthernetCommunicationConnectorNetworkEndpointRefs`, `writer/arxml_writer.py:7751-7756` -/
def writeEthernetCommunicationConnectorNetworkEndpointRefs_EthernetCommunicationConnector : WB :=
  /- 7754 -/ .wrap (.any [(k!"networkEndpointRefs", [])]) k!"NETWORK-ENDPOINT-REFS" (
    /- 7756 -/ .prim k!"NETWORK-ENDPOINT-REF" .ref k!"networkEndpointRefs" <|
    .nil) <|
  .nil

/-- `writeEthernetCommunicationConnector`, `writer/arxml_writer.py:7758-7762` -/
def writeEthernetCommunicationConnector_EthernetCommunicationConnector : WB :=
  /- 7760 -/ writeCommunicationConnector_CommunicationConnector.app <|
  /- 7761 -/ .prim k!"MAXIMUM-TRANSMISSION-UNIT" .numerical k!"maximumTransmissionUnit" <|
  /- 7762 -/ writeEthernetCommunicationConnectorNetworkEndpointRefs_EthernetCommunicationConnector.app <|
  .nil

/-- `writeEcuInstanceConnectors`, `writer/arxml_writer.py:7772-7790` (the block at line 7781) -/
def writeEcuInstanceConnectors_EcuInstance_L7781 : WB :=
  /- 7781 -/ .wrap .always k!"ETHERNET-COMMUNICATION-CONNECTOR" (
    /- 7782 -/ writeEthernetCommunicationConnector_EthernetCommunicationConnector.app <|
    .nil) <|
  .nil

/-- `writeEcuInstanceConnectors`, `writer/arxml_writer.py:7772-7790` (the block at line 7784) -/
def writeEcuInstanceConnectors_EcuInstance_L7784 : WB :=
  /- 7784 -/ .wrap .always k!"LIN-COMMUNICATION-CONNECTOR" (
    /- 7785 -/ writeCanCommunicationConnector_CanCommunicationConnector.app <|
    .nil) <|
  .nil

/-- `writeEcuInstanceConnectors`, `writer/arxml_writer.py:7772-7790` (the block at line 7787) -/
def writeEcuInstanceConnectors_EcuInstance_L7787 : WB :=
  /- 7787 -/ .wrap .always k!"FLEXRAY-COMMUNICATION-CONNECTOR" (
    /- 7788 -/ writeCanCommunicationConnector_CanCommunicationConnector.app <|
    .nil) <|
  .nil

/-- `writeEcuInstanceEcuTaskProxyRefs`, `writer/arxml_writer.py:7813-7818` -/
def writeEcuInstanceEcuTaskProxyRefs_EcuInstance : WB :=
  /- 7816 -/ .wrap (.any [(k!"ecuTaskProxyRefs", [])]) k!"ECU-TASK-PROXY-REFS" (
    /- 7818 -/ .prim k!"ECU-TASK-PROXY-REF" .ref k!"ecuTaskProxyRefs" <|
    .nil) <|
  .nil

/-- `writeEcuInstanceFirewallRuleRefs`, `writer/arxml_writer.py:7820-7825` -/
def writeEcuInstanceFirewallRuleRefs_EcuInstance : WB :=
  /- 7823 -/ .wrap (.any [(k!"firewallRuleRefs", [])]) k!"FIREWALL-RULE-REFS" (
    /- 7825 -/ .prim k!"FIREWALL-RULE-REF" .ref k!"firewallRuleRefs" <|
    .nil) <|
  .nil

/-- `writeEcuInstance`, `writer/arxml_writer.py:7827-7852` -/
def writeEcuInstance_EcuInstance : WB :=
  /- 7829 -/ .wrap .always k!"ECU-INSTANCE" (
    /- 7830 -/ writeIdentifiable_ARPackage.app <|
    /- 7831 -/ writeEcuInstanceAssociatedComIPduGroupRefs_EcuInstance.app <|
    /- 7832 -/ writeEcuInstanceAssociatedConsumedProvidedServiceInstanceGroupRefs_EcuInstance.app <|
    /- 7833 -/ writeEcuInstanceAssociatedPdurIPduGroupRefs_EcuInstance.app <|
    /- 7834 -/ .prim k!"CHANNEL-SYNCHRONOUS-WAKEUP" .lit k!"channelSynchronousWakeup" <|
    /- 7835 -/ .prim k!"COM-CONFIGURATION-GW-TIME-BASE" .lit k!"comConfigurationGwTimeBase" <|
    /- 7836 -/ .prim k!"COM-CONFIGURATION-RX-TIME-BASE" .lit k!"comConfigurationRxTimeBase" <|
    /- 7837 -/ .prim k!"COM-CONFIGURATION-TX-TIME-BASE" .lit k!"comConfigurationTxTimeBase" <|
    /- 7838 -/ .prim k!"COM-ENABLE-MDT-FOR-CYCLIC-TRANSMISSION" .lit k!"comEnableMDTForCyclicTransmission" <|
    /- 7839 -/ writeEcuInstanceCommControllers_EcuInstance.app <|
    /- 7840 -/ writeEcuInstanceConnectors_EcuInstance.app <|
    /- 7841 -/ writeEcuInstanceEcuTaskProxyRefs_EcuInstance.app <|
    /- 7842 -/ .prim k!"ETH-SWITCH-PORT-GROUP-DERIVATION" .lit k!"ethSwitchPortGroupDerivation" <|
    /- 7843 -/ writeEcuInstanceFirewallRuleRefs_EcuInstance.app <|
    /- 7844 -/ .prim k!"PNC-NM-REQUEST" .lit k!"pncNmRequest" <|
    /- 7845 -/ .prim k!"PNC-PREPARE-SLEEP-TIMER" .lit k!"pncPrepareSleepTimer" <|
    /- 7846 -/ .prim k!"PNC-SYNCHRONOUS-WAKEUP" .lit k!"pncSynchronousWakeup" <|
    /- 7847 -/ .prim k!"PN-RESET-TIME" .lit k!"pnResetTime" <|
    /- 7848 -/ .prim k!"SLEEP-MODE-SUPPORTED" .lit k!"sleepModeSupported" <|
    /- 7849 -/ .prim k!"TCP-IP-ICMP-PROPS" .ref k!"tcpIpIcmpPropsRef" <|
    /- 7850 -/ .prim k!"TCP-IP-PROPS" .ref k!"tcpIpPropsRef" <|
    /- 7851 -/ .prim k!"V-2-X-SUPPORTED" .lit k!"v2xSupported" <|
    /- 7852 -/ .prim k!"WAKE-UP-OVER-BUS-SUPPORTED" .lit k!"wakeUpOverBusSupported" <|
    .nil) <|
  .nil

/-- `writeEcuMapping`, `writer/arxml_writer.py:7945-7951` -/
def writeEcuMapping_ECUMapping : WB :=
  /- 7948 -/ .wrap .always k!"ECU-MAPPING" (
    /- 7949 -/ writeIdentifiable_ARPackage.app <|
    /- 7950 -/ .prim k!"ECU-INSTANCE-REF" .ref k!"ecuInstanceRef" <|
    /- 7951 -/ .prim k!"ECU-REF" .ref k!"ecuRef" <|
    .nil) <|
  .nil

/-- `writeEcuStateMgrUserNeeds`, `writer/arxml_writer.py:3729-3732` -/
def writeEcuStateMgrUserNeeds_EcuStateMgrUserNeeds : WB :=
  /- 3731 -/ .wrap .always k!"ECU-STATE-MGR-USER-NEEDS" (
    /- 3732 -/ writeARElement_System.app <|
    .nil) <|
  .nil

/-- `writeEcucAbstractConfigurationClass`, `writer/arxml_writer.py:7004-7007` -/
def writeEcucAbstractConfigurationClass_EcucAbstractConfigurationClass : WB :=
  /- 7005 -/ .attr k!"T" .raw k!"timestamp" <|
  /- 7005 -/ .attr k!"UUID" .raw k!"uuid" <|
  /- 7006 -/ .prim k!"CONFIG-CLASS" .lit k!"configClass" <|
  /- 7007 -/ .prim k!"CONFIG-VARIANT" .lit k!"configVariant" <|
  .nil

/-- `writeEcucDefinitionElement`, `writer/arxml_writer.py:6989-6995` -/
def writeEcucDefinitionElement_EcucDefinitionElement : WB :=
  /- 6990 -/ writeARElement_System.app <|
  /- 6991 -/ .each k!"ecucCond" [] .plain [⟨[], [], k!"writeEcucConditionSpecification_EcucConditionSpecification"⟩] .skip <|
  /- 7106 -/ .wrap (.any [(k!"ecucValidationConds", [])]) k!"ECUC-VALIDATION-CONDS" (
    /- 7108 -/ .each k!"ecucValidationConds" [] .plain [⟨[], [], k!"writeEcucDefinitionElement_EcucDefinitionElement_L7108"⟩] .skip <|
    .nil) <|
  /- 6993 -/ .prim k!"LOWER-MULTIPLICITY" .numerical k!"lowerMultiplicity" <|
  /- 6994 -/ .prim k!"UPPER-MULTIPLICITY" .numerical k!"upperMultiplicity" <|
  /- 6995 -/ .prim k!"SCOPE" .lit k!"scope" <|
  .nil

/-- `writeEcucCommonAttributes`, `writer/arxml_writer.py:7037-7044` -/
def writeEcucCommonAttributes_EcucCommonAttributes : WB :=
  /- 7038 -/ writeEcucDefinitionElement_EcucDefinitionElement.app <|
  /- 7016 -/ .wrap (.any [(k!"multiplicityConfigClasses", [])]) k!"MULTIPLICITY-CONFIG-CLASSES" (
    /- 7019 -/ .each k!"multiplicityConfigClasses" [] .plain [⟨[(false, [k!"EcucMultiplicityConfigurationClass"])], [], k!"writeEcucMultiplicityConfigurationClass_EcucMultiplicityConfigurationClass"⟩] .unsupported <|
    .nil) <|
  /- 7040 -/ .prim k!"ORIGIN" .lit k!"origin" <|
  /- 7041 -/ .prim k!"POST-BUILD-VARIANT-MULTIPLICITY" .lit k!"postBuildVariantMultiplicity" <|
  /- 7042 -/ .prim k!"POST-BUILD-VARIANT-VALUE" .lit k!"postBuildVariantValue" <|
  /- 7043 -/ .prim k!"REQUIRES-INDEX" .lit k!"requiresIndex" <|
  /- 7030 -/ .wrap (.any [(k!"valueConfigClasses", [])]) k!"VALUE-CONFIG-CLASSES" (
    /- 7033 -/ .each k!"valueConfigClasses" [] .plain [⟨[(false, [k!"EcucValueConfigurationClass"])], [], k!"writeEcucValueConfigurationClass_EcucValueConfigurationClass"⟩] .unsupported <|
    .nil) <|
  .nil

/-- `writeEcucAbstractReferenceDef`, `writer/arxml_writer.py:7242-7244` -/
def writeEcucAbstractReferenceDef_EcucAbstractReferenceDef : WB :=
  /- 7243 -/ writeEcucCommonAttributes_EcucCommonAttributes.app <|
  /- 7244 -/ .prim k!"WITH-AUTO" .lit k!"withAuto" <|
  .nil

/-- `writeEcucAbstractExternalReferenceDef`, `writer/arxml_writer.py:7250-7251` -/
def writeEcucAbstractExternalReferenceDef_EcucAbstractExternalReferenceDef : WB :=
  /- 7251 -/ writeEcucAbstractReferenceDef_EcucAbstractReferenceDef.app <|
  .nil

/-- `writeEcucAbstractInternalReferenceDef`, `writer/arxml_writer.py:7246-7248` -/
def writeEcucAbstractInternalReferenceDef_EcucAbstractInternalReferenceDef : WB :=
  /- 7247 -/ writeEcucAbstractReferenceDef_EcucAbstractReferenceDef.app <|
  /- 7248 -/ .prim k!"REQUIRES-SYMBOLIC-NAME-VALUE" .lit k!"requiresSymbolicNameValue" <|
  .nil

/-- `writeEcucParameterDef`, `writer/arxml_writer.py:7046-7050` -/
def writeEcucParameterDef_EcucParameterDef : WB :=
  /- 7047 -/ writeEcucCommonAttributes_EcucCommonAttributes.app <|
  /- 7048 -/ .each k!"derivation" [] .plain [⟨[], [], k!"writeEcucDerivationSpecification_EcucDerivationSpecification"⟩] .skip <|
  /- 7049 -/ .prim k!"SYMBOLIC-NAME-VALUE" .lit k!"symbolicNameValue" <|
  /- 7050 -/ .prim k!"WITH-AUTO" .lit k!"withAuto" <|
  .nil

/-- `writeEcucAbstractStringParamDef`, `writer/arxml_writer.py:7125-7130` -/
def writeEcucAbstractStringParamDef_EcucAbstractStringParamDef : WB :=
  /- 7126 -/ writeEcucParameterDef_EcucParameterDef.app <|
  /- 7127 -/ .prim k!"DEFAULT-VALUE" .lit k!"defaultValue" <|
  /- 7128 -/ .prim k!"MAX-LENGTH" .numerical k!"maxLength" <|
  /- 7129 -/ .prim k!"MIN-LENGTH" .numerical k!"minLength" <|
  /- 7130 -/ .prim k!"REGULAR-EXPRESSION" .lit k!"regularExpression" <|
  .nil

/-- `writeEcucBooleanParamDef`, `writer/arxml_writer.py:7119-7123` -/
def writeEcucBooleanParamDef_EcucBooleanParamDef : WB :=
  /- 7121 -/ .wrap .always k!"ECUC-BOOLEAN-PARAM-DEF" (
    /- 7122 -/ writeEcucParameterDef_EcucParameterDef.app <|
    /- 7123 -/ .prim k!"DEFAULT-VALUE" .lit k!"defaultValue" <|
    .nil) <|
  .nil

/-- `writeEcucChoiceContainerDefChoices`, `writer/arxml_writer.py:7318-7326` -/
def writeEcucChoiceContainerDefChoices_EcucChoiceContainerDef : WB :=
  /- 7321 -/ .wrap (.any [(k!"choices", [])]) k!"CHOICES" (
    /- 7324 -/ .each k!"choices" [] .plain [⟨[(false, [k!"EcucParamConfContainerDef"])], [], k!"writeEcucParamConfContainerDef_EcucParamConfContainerDef"⟩] .unsupported <|
    .nil) <|
  .nil

/-- `writeEcucContainerDef`, `writer/arxml_writer.py:7217-7223` -/
def writeEcucContainerDef_EcucContainerDef : WB :=
  /- 7218 -/ writeEcucDefinitionElement_EcucDefinitionElement.app <|
  /- 7227 -/ .wrap (.any [(k!"destinationUriRefs", [])]) k!"DESTINATION-URI-REFS" (
    /- 7230 -/ .each k!"destinationUriRefs" [] .plain [⟨[(false, [k!"EcucDestinationUriDefRefType"])], [], k!"writeEcucContainerDef_EcucContainerDef_L7230"⟩] .unsupported <|
    .nil) <|
  /- 7016 -/ .wrap (.any [(k!"multiplicityConfigClasses", [])]) k!"MULTIPLICITY-CONFIG-CLASSES" (
    /- 7019 -/ .each k!"multiplicityConfigClasses" [] .plain [⟨[(false, [k!"EcucMultiplicityConfigurationClass"])], [], k!"writeEcucMultiplicityConfigurationClass_EcucMultiplicityConfigurationClass"⟩] .unsupported <|
    .nil) <|
  /- 7221 -/ .prim k!"ORIGIN" .lit k!"origin" <|
  /- 7222 -/ .prim k!"POST-BUILD-VARIANT-MULTIPLICITY" .lit k!"postBuildVariantMultiplicity" <|
  /- 7223 -/ .prim k!"REQUIRES-INDEX" .lit k!"requiresIndex" <|
  .nil

/-- `writeEcucChoiceContainerDef`, `writer/arxml_writer.py:7328-7332` -/
def writeEcucChoiceContainerDef_EcucChoiceContainerDef : WB :=
  /- 7330 -/ .wrap .always k!"ECUC-CHOICE-CONTAINER-DEF" (
    /- 7331 -/ writeEcucContainerDef_EcucContainerDef.app <|
    /- 7332 -/ writeEcucChoiceContainerDefChoices_EcucChoiceContainerDef.app <|
    .nil) <|
  .nil

/-- `writeEcucChoiceReferenceDef`, `writer/arxml_writer.py:7265-7273` -/
def writeEcucChoiceReferenceDef_EcucChoiceReferenceDef : WB :=
  /- 7267 -/ .wrap .always k!"ECUC-CHOICE-REFERENCE-DEF" (
    /- 7268 -/ writeEcucAbstractInternalReferenceDef_EcucAbstractInternalReferenceDef.app <|
    /- 7271 -/ .wrap (.any [(k!"destinationRefs", [])]) k!"DESTINATION-REFS" (
      /- 7273 -/ .prim k!"DESTINATION-REF" .ref k!"destinationRefs" <|
      .nil) <|
    .nil) <|
  .nil

/-- `writeEcucConditionFormula`, `writer/arxml_writer.py:7072-7077` -/
def writeEcucConditionFormula_CONDITION_FORMULA_EcucConditionFormula : WB :=
  /- 7075 -/ .wrap .always k!"CONDITION-FORMULA" (
    /- 7076 -/ .prim k!"ECUC-QUERY-REF" .ref k!"ecucQueryRef" <|
    /- 7077 -/ .prim k!"ECUC-QUERY-STRING-REF" .ref k!"ecucQueryStringRef" <|
    .nil) <|
  .nil

/-- `writeEcucConditionFormula`, `writer/arxml_writer.py:7072-7077` -/
def writeEcucConditionFormula_VALIDATION_FORMULA_EcucConditionFormula : WB :=
  /- 7075 -/ .wrap .always k!"VALIDATION-FORMULA" (
    /- 7076 -/ .prim k!"ECUC-QUERY-REF" .ref k!"ecucQueryRef" <|
    /- 7077 -/ .prim k!"ECUC-QUERY-STRING-REF" .ref k!"ecucQueryStringRef" <|
    .nil) <|
  .nil

/-- `writeEcucConditionSpecification`, `writer/arxml_writer.py:7079-7090` -/
def writeEcucConditionSpecification_EcucConditionSpecification : WB :=
  /- 7082 -/ .wrap .always k!"ECUC-COND" (
    /- 7083 -/ .each k!"conditionFormula" [] .plain [⟨[], [], k!"writeEcucConditionFormula_CONDITION_FORMULA_EcucConditionFormula"⟩] .skip <|
    /- 7086 -/ .wrap (.any [(k!"ecucQueries", [])]) k!"ECUC-QUERYS" (
      /- 7088 -/ .each k!"ecucQueries" [] .plain [⟨[], [], k!"writeEcucValidationCondition_EcucValidationCondition_L7100"⟩] .skip <|
      .nil) <|
    /- 7090 -/ .each k!"informalFormula" [] .plain [⟨[], [], k!"setMlFormula_INFORMAL_FORMULA_MlFormula"⟩] .skip <|
    .nil) <|
  .nil

/-- `writeEcucQuery`, `writer/arxml_writer.py:7111-7117` -/
def writeEcucQuery_EcucQuery : WB :=
  /- 7112 -/ writeIdentifiable_ARPackage.app <|
  /- 7115 -/ .each k!"ecucQueryExpression" [] .plain [⟨[], [], k!"writeEcucQuery_EcucQuery_L7115"⟩] .skip <|
  .nil

/-- `writeEcucValidationCondition`, `writer/arxml_writer.py:7092-7102` (the block at line 7100); also `writeEcucConditionSpecification`, `writeEcucDerivationSpecification` -/
def writeEcucValidationCondition_EcucValidationCondition_L7100 : WB :=
  /- 7100 -/ .wrap .always k!"ECUC-QUERY" (
    /- 7101 -/ writeEcucQuery_EcucQuery.app <|
    .nil) <|
  .nil

/-- `writeEcucContainerValueParameterValues`, `writer/arxml_writer.py:8289-8299` -/
def writeEcucContainerValueParameterValues_EcucContainerValue : WB :=
  /- 8292 -/ .wrap (.any [(k!"parameterValues", [])]) k!"PARAMETER-VALUES" (
    /- 8295 -/ .each k!"parameterValues" [] .plain [⟨[(false, [k!"EcucTextualParamValue"])], [], k!"setEcucTextualParamValue_EcucTextualParamValue"⟩,
      ⟨[(false, [k!"EcucNumericalParamValue"])], [k!"EcucTextualParamValue"], k!"setEcucNumericalParamValue_EcucNumericalParamValue"⟩] .unsupported <|
    .nil) <|
  .nil

/-- `writeEcucContainerValueReferenceValues`, `writer/arxml_writer.py:8328-8338` -/
def writeEcucContainerValueReferenceValues_EcucContainerValue : WB :=
  /- 8331 -/ .wrap (.any [(k!"referenceValues", [])]) k!"REFERENCE-VALUES" (
    /- 8334 -/ .each k!"referenceValues" [] .plain [⟨[(false, [k!"EcucReferenceValue"])], [], k!"setEcucReferenceValue_EcucReferenceValue"⟩,
      ⟨[(false, [k!"EcucInstanceReferenceValue"])], [k!"EcucReferenceValue"], k!"setEcucInstanceReferenceValue_EcucInstanceReferenceValue"⟩] .unsupported <|
    .nil) <|
  .nil

/-- `writeEcucContainerValueSubContainers`, `writer/arxml_writer.py:8264-8272` -/
def writeEcucContainerValueSubContainers_EcucContainerValue : WB :=
  /- 8267 -/ .wrap (.any [(k!"subContainers", [])]) k!"SUB-CONTAINERS" (
    /- 8270 -/ .each k!"subContainers" [] .plain [⟨[(false, [k!"EcucContainerValue"])], [], k!"writeEcucContainValue_EcucContainerValue"⟩] .unsupported <|
    .nil) <|
  .nil

/-- `writeEcucContainValue`, `writer/arxml_writer.py:8340-8348` -/
def writeEcucContainValue_EcucContainerValue : WB :=
  /- 8342 -/ .wrap .always k!"ECUC-CONTAINER-VALUE" (
    /- 8343 -/ writeIdentifiable_ARPackage.app <|
    /- 8344 -/ .prim k!"DEFINITION-REF" .ref k!"definitionRef" <|
    /- 8345 -/ .prim k!"INDEX" .numerical k!"index" <|
    /- 8346 -/ writeEcucContainerValueParameterValues_EcucContainerValue.app <|
    /- 8347 -/ writeEcucContainerValueReferenceValues_EcucContainerValue.app <|
    /- 8348 -/ writeEcucContainerValueSubContainers_EcucContainerValue.app <|
    .nil) <|
  .nil

/-- `writeEcucContainerDefParameters`, `writer/arxml_writer.py:7195-7215`; also `writeEcucDestinationUriPolicyParameters` -/
def writeEcucContainerDefParameters_EcucParamConfContainerDef : WB :=
  /- 7198 -/ .wrap (.any [(k!"parameters", [])]) k!"PARAMETERS" (
    /- 7201 -/ .each k!"parameters" [] .plain [⟨[(false, [k!"EcucBooleanParamDef"])], [], k!"writeEcucBooleanParamDef_EcucBooleanParamDef"⟩,
      ⟨[(false, [k!"EcucStringParamDef"])], [k!"EcucBooleanParamDef"], k!"writeEcucStringParamDef_EcucStringParamDef"⟩,
      ⟨[(false, [k!"EcucIntegerParamDef"])], [k!"EcucBooleanParamDef", k!"EcucStringParamDef"], k!"writeEcucIntegerParamDef_EcucIntegerParamDef"⟩,
      ⟨[(false, [k!"EcucFloatParamDef"])], [k!"EcucBooleanParamDef", k!"EcucStringParamDef", k!"EcucIntegerParamDef"], k!"writeEcucFloatParamDef_EcucFloatParamDef"⟩,
      ⟨[(false, [k!"EcucEnumerationParamDef"])], [k!"EcucBooleanParamDef", k!"EcucStringParamDef", k!"EcucIntegerParamDef", k!"EcucFloatParamDef"], k!"writeEcucEnumerationParamDef_EcucEnumerationParamDef"⟩,
      ⟨[(false, [k!"EcucFunctionNameDef"])], [k!"EcucBooleanParamDef", k!"EcucStringParamDef", k!"EcucIntegerParamDef", k!"EcucFloatParamDef", k!"EcucEnumerationParamDef"], k!"writeEcucFunctionNameDef_EcucFunctionNameDef"⟩,
      ⟨[(false, [k!"EcucMultilineStringParamDef"])], [k!"EcucBooleanParamDef", k!"EcucStringParamDef", k!"EcucIntegerParamDef", k!"EcucFloatParamDef", k!"EcucEnumerationParamDef", k!"EcucFunctionNameDef"], k!"writeEcucMultilineStringParamDef_EcucMultilineStringParamDef"⟩] .unsupported <|
    .nil) <|
  .nil

/-- `writeEcucContainerDefReferences`, `writer/arxml_writer.py:7282-7296`; also `writeEcucDestinationUriPolicyReferences` -/
def writeEcucContainerDefReferences_EcucContainerDef : WB :=
  /- 7285 -/ .wrap (.any [(k!"references", [])]) k!"REFERENCES" (
    /- 7288 -/ .each k!"references" [] .plain [⟨[(false, [k!"EcucSymbolicNameReferenceDef"])], [], k!"writeEcucSymbolicNameReferenceDef_EcucSymbolicNameReferenceDef"⟩,
      ⟨[(false, [k!"EcucReferenceDef"])], [k!"EcucSymbolicNameReferenceDef"], k!"writeEcucReferenceDef_EcucReferenceDef"⟩,
      ⟨[(false, [k!"EcucChoiceReferenceDef"])], [k!"EcucSymbolicNameReferenceDef", k!"EcucReferenceDef"], k!"writeEcucChoiceReferenceDef_EcucChoiceReferenceDef"⟩,
      ⟨[(false, [k!"EcucInstanceReferenceDef"])], [k!"EcucSymbolicNameReferenceDef", k!"EcucReferenceDef", k!"EcucChoiceReferenceDef"], k!"writeEcucInstanceReferenceDef_EcucInstanceReferenceDef"⟩] .unsupported <|
    .nil) <|
  .nil

/-- `writeEcucContainerDefSubContainers`, `writer/arxml_writer.py:7298-7308` -/
def writeEcucContainerDefSubContainers_EcucParamConfContainerDef : WB :=
  /- 7301 -/ .wrap (.any [(k!"subContainers", [])]) k!"SUB-CONTAINERS" (
    /- 7304 -/ .each k!"subContainers" [] .plain [⟨[(false, [k!"EcucParamConfContainerDef"])], [], k!"writeEcucParamConfContainerDef_EcucParamConfContainerDef"⟩,
      ⟨[(false, [k!"EcucChoiceContainerDef"])], [k!"EcucParamConfContainerDef"], k!"writeEcucChoiceContainerDef_EcucChoiceContainerDef"⟩] .unsupported <|
    .nil) <|
  .nil

/-- `writeEcucContainerDef`, `writer/arxml_writer.py:7217-7223` (the block at line 7230) -/
def writeEcucContainerDef_EcucContainerDef_L7230 : WB :=
  /- 7230 -/ .wrap .always k!"DESTINATION-URI-REF" (
    /- 7233 -/ .attr k!"BASE" .raw k!"base" <|
    /- 7236 -/ .attr k!"DEST" .raw k!"dest" <|
    /- 7238 -/ .text .raw k!"value" <|
    .nil) <|
  .nil

/-- `writeEcucDefinitionCollectionModuleRefs`, `writer/arxml_writer.py:7356-7361` -/
def writeEcucDefinitionCollectionModuleRefs_EcucDefinitionCollection : WB :=
  /- 7359 -/ .wrap (.any [(k!"moduleRefs", [])]) k!"MODULE-REFS" (
    /- 7361 -/ .prim k!"MODULE-REF" .ref k!"moduleRefs" <|
    .nil) <|
  .nil

/-- `writeEcucDefinitionCollection`, `writer/arxml_writer.py:7363-7368` -/
def writeEcucDefinitionCollection_EcucDefinitionCollection : WB :=
  /- 7366 -/ .wrap .always k!"ECUC-DEFINITION-COLLECTION" (
    /- 7367 -/ writeARElement_System.app <|
    /- 7368 -/ writeEcucDefinitionCollectionModuleRefs_EcucDefinitionCollection.app <|
    .nil) <|
  .nil

/-- `writeEcucValidationCondition`, `writer/arxml_writer.py:7092-7102` -/
def writeEcucValidationCondition_EcucValidationCondition : WB :=
  /- 7095 -/ writeIdentifiable_ARPackage.app <|
  /- 7098 -/ .wrap (.any [(k!"ecucQueries", [])]) k!"ECUC-QUERYS" (
    /- 7100 -/ .each k!"ecucQueries" [] .plain [⟨[], [], k!"writeEcucValidationCondition_EcucValidationCondition_L7100"⟩] .skip <|
    .nil) <|
  /- 7102 -/ .each k!"validationFormula" [] .plain [⟨[], [], k!"writeEcucConditionFormula_VALIDATION_FORMULA_EcucConditionFormula"⟩] .skip <|
  .nil

/-- `writeEcucDefinitionElement`, `writer/arxml_writer.py:6989-6995` (the block at line 7108) -/
def writeEcucDefinitionElement_EcucDefinitionElement_L7108 : WB :=
  /- 7108 -/ .wrap .always k!"ECUC-VALIDATION-CONDITION" (
    /- 7109 -/ writeEcucValidationCondition_EcucValidationCondition.app <|
    .nil) <|
  .nil

/-- `writeEcucDerivationSpecification`, `writer/arxml_writer.py:7052-7063` -/
def writeEcucDerivationSpecification_EcucDerivationSpecification : WB :=
  /- 7055 -/ .wrap .always k!"DERIVATION" (
    /- 7056 -/ .each k!"calculationFormula" [] .plain [⟨[], [], k!"writeEcucParameterDerivationFormula_EcucParameterDerivationFormula"⟩] .skip <|
    /- 7059 -/ .wrap (.any [(k!"ecucQueries", [])]) k!"ECUC-QUERYS" (
      /- 7061 -/ .each k!"ecucQueries" [] .plain [⟨[], [], k!"writeEcucValidationCondition_EcucValidationCondition_L7100"⟩] .skip <|
      .nil) <|
    /- 7063 -/ .each k!"informalFormula" [] .plain [⟨[], [], k!"setMlFormula_INFORMAL_FORMULA_MlFormula"⟩] .skip <|
    .nil) <|
  .nil

/-- `writeEcucDestinationUriDefSet`, `writer/arxml_writer.py:7370-7379` -/
def writeEcucDestinationUriDefSet_EcucDestinationUriDefSet : WB :=
  /- 7373 -/ .wrap .always k!"ECUC-DESTINATION-URI-DEF-SET" (
    /- 7374 -/ writeARElement_System.app <|
    /- 7377 -/ .wrap (.any [(k!"destinationUriDefs", [])]) k!"DESTINATION-URI-DEFS" (
      /- 7379 -/ .each k!"destinationUriDefs" [] .plain [⟨[], [], k!"writeEcucDestinationUriDef_EcucDestinationUriDef"⟩] .skip <|
      .nil) <|
    .nil) <|
  .nil

/-- `writeEcucDestinationUriDef`, `writer/arxml_writer.py:7381-7386` -/
def writeEcucDestinationUriDef_EcucDestinationUriDef : WB :=
  /- 7384 -/ .wrap .always k!"ECUC-DESTINATION-URI-DEF" (
    /- 7385 -/ writeIdentifiable_ARPackage.app <|
    /- 7386 -/ .each k!"destinationUriPolicy" [] .plain [⟨[], [], k!"writeEcucDestinationUriPolicy_EcucDestinationUriPolicy"⟩] .skip <|
    .nil) <|
  .nil

/-- `writeEcucDestinationUriPolicy`, `writer/arxml_writer.py:7388-7409` -/
def writeEcucDestinationUriPolicy_EcucDestinationUriPolicy : WB :=
  /- 7392 -/ .wrap .always k!"DESTINATION-URI-POLICY" (
    /- 7393 -/ .attr k!"T" .raw k!"timestamp" <|
    /- 7393 -/ .attr k!"UUID" .raw k!"uuid" <|
    /- 7396 -/ .wrap (.any [(k!"containers", [])]) k!"CONTAINERS" (
      /- 7399 -/ .each k!"containers" [] .plain [⟨[(false, [k!"EcucParamConfContainerDef"])], [], k!"writeEcucParamConfContainerDef_EcucParamConfContainerDef"⟩,
        ⟨[(false, [k!"EcucChoiceContainerDef"])], [k!"EcucParamConfContainerDef"], k!"writeEcucChoiceContainerDef_EcucChoiceContainerDef"⟩] .unsupported <|
      .nil) <|
    /- 7406 -/ .prim k!"DESTINATION-URI-NESTING-CONTRACT" .getValue k!"destinationUriNestingContract" <|
    /- 7408 -/ writeEcucContainerDefParameters_EcucParamConfContainerDef.app <|
    /- 7409 -/ writeEcucContainerDefReferences_EcucContainerDef.app <|
    .nil) <|
  .nil

end Verif.Gen.W
