import Verif.Gen.Read7
-- generated by tools/gen_codec.py; do not edit
namespace Verif.Gen.R
open Verif Verif.Model

/-- `readRunnableEntityDataReceivePointByArguments`, `parser/arxml_parser.py:3052-3053` -/
def readRunnableEntityDataReceivePointByArguments : List RSlot :=
  /- 3053 -/ _readVariableAccesses_DATA_RECEIVE_POINT_BY_ARGUMENTS

/-- `readRunnableEntityDataReceivePointByValues`, `parser/arxml_parser.py:3055-3056` -/
def readRunnableEntityDataReceivePointByValues : List RSlot :=
  /- 3056 -/ _readVariableAccesses_DATA_RECEIVE_POINT_BY_VALUES

/-- `readRunnableEntityDataWriteAccesses`, `parser/arxml_parser.py:3061-3062` -/
def readRunnableEntityDataWriteAccesses : List RSlot :=
  /- 3062 -/ _readVariableAccesses_DATA_WRITE_ACCESSS

/-- `readRunnableEntityDataSendPoints`, `parser/arxml_parser.py:3064-3065` -/
def readRunnableEntityDataSendPoints : List RSlot :=
  /- 3065 -/ _readVariableAccesses_DATA_SEND_POINTS

/-- `readRunnableEntityInternalBehaviorServerCallPoint`, `parser/arxml_parser.py:3151-3159` -/
def readRunnableEntityInternalBehaviorServerCallPoint : List RSlot :=
  [/- 3138 -/ { field := k!"elements", path := (.all k!"SERVER-CALL-POINTS" (.all 0 .nil)), item := (.objs [(k!"SYNCHRONOUS-SERVER-CALL-POINT", k!"readSynchronousServerCallPoint_SynchronousServerCallPoint"), (k!"ASYNCHRONOUS-SERVER-CALL-POINT", k!"readAsynchronousServerCallPoint_AsynchronousServerCallPoint")]), elems := true, named := true, fresh := true },
   /- 3159 -/ { field := 0, path := (.all k!"SERVER-CALL-POINTS" (.all 0 .nil)), item := (.guard [k!"SYNCHRONOUS-SERVER-CALL-POINT", k!"ASYNCHRONOUS-SERVER-CALL-POINT"] .invalid) }]

/-- `readRunnableEntityInternalTriggeringPoints`, `parser/arxml_parser.py:3161-3165` -/
def readRunnableEntityInternalTriggeringPoints : List RSlot :=
  [/- 3164 -/ { field := k!"elements", path := (.all k!"INTERNAL-TRIGGERING-POINTS" (.all k!"INTERNAL-TRIGGERING-POINT" .nil)), item := (.objs [(k!"INTERNAL-TRIGGERING-POINT", k!"readRunnableEntityInternalTriggeringPoints_InternalTriggeringPoint")]), elems := true, named := true }]

/-- `readRunnableEntityExternalTriggeringPoints`, `parser/arxml_parser.py:3167-3178` -/
def readRunnableEntityExternalTriggeringPoints : List RSlot :=
  [/- 3178 -/ { field := k!"externalTriggeringPoints", path := (.all k!"EXTERNAL-TRIGGERING-POINTS" (.all k!"EXTERNAL-TRIGGERING-POINT" .nil)), item := (.objs [(k!"EXTERNAL-TRIGGERING-POINT", k!"readRunnableEntityExternalTriggeringPoints_ExternalTriggeringPoint")]) }]

/-- `readRunnableEntityModeAccessPoints`, `parser/arxml_parser.py:3301-3309` -/
def readRunnableEntityModeAccessPoints : List RSlot :=
  [/- 3307 -/ { field := k!"modeAccessPoints", path := (.all k!"MODE-ACCESS-POINTS" (.all k!"MODE-ACCESS-POINT" .nil)), item := (.objs [(k!"MODE-ACCESS-POINT", k!"readRunnableEntityModeAccessPoints_ModeAccessPoint")]) },
   /- 3309 -/ { field := 0, path := (.all k!"MODE-ACCESS-POINTS" (.all 0 .nil)), item := (.guard [k!"MODE-ACCESS-POINT"] .unsupported) }]

/-- `readRunnableEntityModeSwitchPoints`, `parser/arxml_parser.py:3322-3329` -/
def readRunnableEntityModeSwitchPoints : List RSlot :=
  [/- 3326 -/ { field := k!"modeSwitchPoints", path := (.all k!"MODE-SWITCH-POINTS" (.all k!"MODE-SWITCH-POINT" .nil)), item := (.objs [(k!"MODE-SWITCH-POINT", k!"readRunnableEntityModeSwitchPoints_ModeSwitchPoint")]), elems := true, named := true },
   /- 3329 -/ { field := 0, path := (.all k!"MODE-SWITCH-POINTS" (.all 0 .nil)), item := (.guard [k!"MODE-SWITCH-POINT"] .unsupported) }]

/-- `readRunnableEntityParameterAccesses`, `parser/arxml_parser.py:3097-3102` -/
def readRunnableEntityParameterAccesses : List RSlot :=
  [/- 3101 -/ { field := k!"elements", path := (.all k!"PARAMETER-ACCESSS" (.all k!"PARAMETER-ACCESS" .nil)), item := (.objs [(k!"PARAMETER-ACCESS", k!"readRunnableEntityParameterAccesses_ParameterAccess")]), elems := true, named := true }]

/-- `readRunnableEntityReadLocalVariables`, `parser/arxml_parser.py:3107-3108` -/
def readRunnableEntityReadLocalVariables : List RSlot :=
  /- 3108 -/ _readVariableAccesses_READ_LOCAL_VARIABLES

/-- `readRunnableEntityWaitPoints`, `parser/arxml_parser.py:3345-3350` -/
def readRunnableEntityWaitPoints : List RSlot :=
  [/- 3347 -/ { field := k!"waitPoints", path := (.all k!"WAIT-POINTS" (.all k!"WAIT-POINT" .nil)), item := (.objs [(k!"WAIT-POINT", k!"readRunnableEntityWaitPoints_WaitPoint")]), elems := true, named := true }]

/-- `readRunnableEntityWrittenLocalVariables`, `parser/arxml_parser.py:3104-3105` -/
def readRunnableEntityWrittenLocalVariables : List RSlot :=
  /- 3105 -/ _readVariableAccesses_WRITTEN_LOCAL_VARIABLES

/-- `readRunnableEntity`, `parser/arxml_parser.py:3352-3373` -/
def readRunnableEntity : List RSlot :=
  /- 3353 -/ readExecutableEntity ++
  /- 3354 -/ readRunnableEntityArguments ++
  /- 3356 -/ readRunnableEntityAsynchronousServerCallResultPoint ++
  [/- 3357 -/ { field := k!"canBeInvokedConcurrently", path := (.first [k!"CAN-BE-INVOKED-CONCURRENTLY"] .nil), item := (.prim .boolean) }] ++
  /- 3358 -/ readRunnableEntityDataReadAccesses ++
  /- 3359 -/ readRunnableEntityDataReceivePointByArguments ++
  /- 3360 -/ readRunnableEntityDataReceivePointByValues ++
  /- 3361 -/ readRunnableEntityDataWriteAccesses ++
  /- 3362 -/ readRunnableEntityDataSendPoints ++
  /- 3363 -/ readRunnableEntityInternalBehaviorServerCallPoint ++
  /- 3364 -/ readRunnableEntityInternalTriggeringPoints ++
  /- 3365 -/ readRunnableEntityExternalTriggeringPoints ++
  /- 3366 -/ readRunnableEntityModeAccessPoints ++
  /- 3367 -/ readRunnableEntityModeSwitchPoints ++
  /- 3368 -/ readRunnableEntityParameterAccesses ++
  /- 3369 -/ readRunnableEntityReadLocalVariables ++
  /- 3370 -/ readRunnableEntityWaitPoints ++
  /- 3371 -/ readRunnableEntityWrittenLocalVariables ++
  [/- 3373 -/ { field := k!"symbol", path := (.first [k!"SYMBOL"] .nil), item := (.prim .lit) }]

/-- `readRunnableEntityAsynchronousServerCallResultPoint`, `parser/arxml_parser.py:3339-3343` (the `AsynchronousServerCallResultPoint` it makes) -/
def readRunnableEntityAsynchronousServerCallResultPoint_AsynchronousServerCallResultPoint : List RSlot :=
  [/- 3341 -/ { field := k!"short_name", path := (.first [k!"SHORT-NAME"] .nil), item := .name, req := .always }] ++
  /- 3342 -/ readIdentifiable ++
  [/- 3343 -/ { field := k!"asynchronousServerCallPointRef", path := (.first [k!"ASYNCHRONOUS-SERVER-CALL-POINT-REF"] .nil), item := (.prim .ref) }]

/-- `readRunnableEntityExternalTriggeringPoints`, `parser/arxml_parser.py:3167-3178` (the `ExternalTriggeringPoint` it makes) -/
def readRunnableEntityExternalTriggeringPoints_ExternalTriggeringPoint : List RSlot :=
  [/- 3172 -/ { field := k!"ident", path := (.first [k!"IDENT"] .nil), item := (.objs [(k!"IDENT", k!"readRunnableEntityExternalTriggeringPoints_ExternalTriggeringPointIdent")]), named := true },
   /- 3177 -/ { field := k!"trigger", path := (.first [k!"TRIGGER-IREF"] .nil), item := (.objs [(k!"TRIGGER-IREF", k!"readSwcBswSynchronizedTrigger_PTriggerInAtomicSwcTypeInstanceRef")]) }]

/-- `readSwcBswSynchronizedTrigger`, `parser/arxml_parser.py:5233-5241` (the `PTriggerInAtomicSwcTypeInstanceRef` it makes); also `readRunnableEntityExternalTriggeringPoints` -/
def readSwcBswSynchronizedTrigger_PTriggerInAtomicSwcTypeInstanceRef : List RSlot :=
  /- 5239 -/ readPTriggerInAtomicSwcTypeInstanceRef

/-- `readRunnableEntityGroupRunnableEntityGroupIRefs`, `parser/arxml_parser.py:3237-3241` (the `InnerRunnableEntityGroupInCompositionInstanceRef` it makes) -/
def readRunnableEntityGroupRunnableEntityGroupIRefs_InnerRunnableEntityGroupInCompositionInstanceRef : List RSlot :=
  /- 3240 -/ readInnerRunnableEntityGroupInCompositionInstanceRef

/-- `readRunnableEntityInCompositionInstanceRef`, `parser/arxml_parser.py:3208-3211` -/
def readRunnableEntityInCompositionInstanceRef : List RSlot :=
  [/- 3210 -/ { field := k!"contextSwComponentPrototypeRefs", path := (.all k!"CONTEXT-SW-COMPONENT-PROTOTYPE-REF" .nil), item := (.prim .ref) },
   /- 3211 -/ { field := k!"targetRunnableEntityRef", path := (.first [k!"TARGET-RUNNABLE-ENTITY-REF"] .nil), item := (.prim .ref) }]

/-- `readRunnableEntityGroupRunnableEntityIRefs`, `parser/arxml_parser.py:3243-3247` (the `RunnableEntityInCompositionInstanceRef` it makes) -/
def readRunnableEntityGroupRunnableEntityIRefs_RunnableEntityInCompositionInstanceRef : List RSlot :=
  /- 3246 -/ readRunnableEntityInCompositionInstanceRef

/-- `readRunnableEntityInternalTriggeringPoints`, `parser/arxml_parser.py:3161-3165` (the `InternalTriggeringPoint` it makes) -/
def readRunnableEntityInternalTriggeringPoints_InternalTriggeringPoint : List RSlot :=
  [/- 3164 -/ { field := k!"short_name", path := (.first [k!"SHORT-NAME"] .nil), item := .name, req := .always },
   /- 3165 -/ { field := k!"sw_impl_policy", path := (.first [k!"SW-IMPL-POLICY"] .nil), item := (.prim .lit) }]

/-- `readRunnableEntityModeAccessPoints`, `parser/arxml_parser.py:3301-3309` (the `ModeAccessPoint` it makes) -/
def readRunnableEntityModeAccessPoints_ModeAccessPoint : List RSlot :=
  /- 3306 -/ readModeAccessPoint

/-- `readRunnableEntityModeSwitchPoints`, `parser/arxml_parser.py:3322-3329` (the `ModeSwitchPoint` it makes) -/
def readRunnableEntityModeSwitchPoints_ModeSwitchPoint : List RSlot :=
  [/- 3326 -/ { field := k!"short_name", path := (.first [k!"SHORT-NAME"] .nil), item := .name, req := .always }] ++
  /- 3327 -/ readModeSwitchPoint

/-- `readRunnableEntityParameterAccesses`, `parser/arxml_parser.py:3097-3102` (the `ParameterAccess` it makes) -/
def readRunnableEntityParameterAccesses_ParameterAccess : List RSlot :=
  [/- 3101 -/ { field := k!"short_name", path := (.first [k!"SHORT-NAME"] .nil), item := .name, req := .always }] ++
  /- 3102 -/ readParameterAccess

/-- `readRunnableEntityWaitPoints`, `parser/arxml_parser.py:3345-3350` (the `WaitPoint` it makes) -/
def readRunnableEntityWaitPoints_WaitPoint : List RSlot :=
  [/- 3347 -/ { field := k!"short_name", path := (.first [k!"SHORT-NAME"] .nil), item := .name, req := .always }] ++
  /- 3348 -/ readIdentifiable ++
  [/- 3349 -/ { field := k!"timeout", path := (.first [k!"TIMEOUT"] .nil), item := (.prim .time) },
   /- 3350 -/ { field := k!"triggerRef", path := (.first [k!"TRIGGER"] .nil), item := (.prim .ref) }]

/-- `readScaleConstr`, `parser/arxml_parser.py:5425-5435` (the `ScaleConstr` it makes) -/
def readScaleConstr_ScaleConstr : List RSlot :=
  [/- 5427 -/ { field := k!"timestamp", path := .nil, item := (.attr k!"T" .raw) },
   /- 5427 -/ { field := k!"uuid", path := .nil, item := (.attr k!"UUID" .raw) },
   /- 5428 -/ { field := k!"desc", path := (.first [k!"DESC"] .nil), item := (.objs [(k!"DESC", k!"getMultiLanguageOverviewParagraph_MultiLanguageOverviewParagraph")]) },
   /- 5429 -/ { field := k!"lowerLimit", path := (.first [k!"LOWER-LIMIT"] .nil), item := (.prim .limit) },
   /- 5430 -/ { field := k!"shortLabel", path := (.first [k!"SHORT-LABEL"] .nil), item := (.prim .lit) },
   /- 5431 -/ { field := k!"upperLimit", path := (.first [k!"UPPER-LIMIT"] .nil), item := (.prim .limit) },
   /- 5434 -/ { field := k!"validity", path := .nil, item := (.attr k!"VALIDITY" .lit) }]

/-- `readSd`, `parser/arxml_parser.py:751-759` (the `Sd` it makes) -/
def readSd_Sd : List RSlot :=
  [/- 754 -/ { field := k!"timestamp", path := .nil, item := (.attr k!"T" .raw) },
   /- 754 -/ { field := k!"uuid", path := .nil, item := (.attr k!"UUID" .raw) },
   /- 756 -/ { field := k!"gid", path := .nil, item := (.attr k!"GID" .lit) },
   /- 758 -/ { field := k!"value", path := .nil, item := (.prim .litNonblank) }]

/-- `readSdf`, `parser/arxml_parser.py:761-769` (the `Sdf` it makes) -/
def readSdf_Sdf : List RSlot :=
  [/- 764 -/ { field := k!"timestamp", path := .nil, item := (.attr k!"T" .raw) },
   /- 764 -/ { field := k!"uuid", path := .nil, item := (.attr k!"UUID" .raw) },
   /- 766 -/ { field := k!"gid", path := .nil, item := (.attr k!"GID" .lit) },
   /- 768 -/ { field := k!"value", path := .nil, item := (.prim .litNonblank) }]

/-- `readSectionNamePrefixes`, `parser/arxml_parser.py:2725-2729` (the `SectionNamePrefix` it makes) -/
def readSectionNamePrefixes_SectionNamePrefix : List RSlot :=
  [/- 2727 -/ { field := k!"short_name", path := (.first [k!"SHORT-NAME"] .nil), item := .name, req := .always }] ++
  /- 2728 -/ readReferrable ++
  [/- 2729 -/ { field := k!"implementedInRef", path := (.first [k!"IMPLEMENTED-IN-REF"] .nil), item := (.prim .ref) }]

/-- `readSecureCommunicationAuthenticationProps`, `parser/arxml_parser.py:6488-6490` -/
def readSecureCommunicationAuthenticationProps : List RSlot :=
  /- 6489 -/ readIdentifiable ++
  [/- 6490 -/ { field := k!"authInfoTxLength", path := (.first [k!"AUTH-INFO-TX-LENGTH"] .nil), item := (.prim .positive) }]

/-- `readSecureCommunicationFreshnessProps`, `parser/arxml_parser.py:6501-6507` -/
def readSecureCommunicationFreshnessProps : List RSlot :=
  /- 6502 -/ readIdentifiable ++
  [/- 6503 -/ { field := k!"freshnessCounterSyncAttempts", path := (.first [k!"FRESHNESS-COUNTER-SYNC-ATTEMPTS"] .nil), item := (.prim .positive) },
   /- 6504 -/ { field := k!"freshnessTimestampTimePeriodFactor", path := (.first [k!"FRESHNESS-TIMESTAMP-TIME-PERIOD-FACTOR"] .nil), item := (.prim .positive) },
   /- 6505 -/ { field := k!"freshnessValueLength", path := (.first [k!"FRESHNESS-VALUE-LENGTH"] .nil), item := (.prim .positive) },
   /- 6506 -/ { field := k!"freshnessValueTxLength", path := (.first [k!"FRESHNESS-VALUE-TX-LENGTH"] .nil), item := (.prim .positive) },
   /- 6507 -/ { field := k!"useFreshnessTimestamp", path := (.first [k!"USE-FRESHNESS-TIMESTAMP"] .nil), item := (.prim .boolean) }]

/-- `readSecureCommunicationPropsSetAuthenticationProps`, `parser/arxml_parser.py:6492-6499` (the `SecureCommunicationAuthenticationProps` it makes) -/
def readSecureCommunicationPropsSetAuthenticationProps_SecureCommunicationAuthenticationProps : List RSlot :=
  [/- 6496 -/ { field := k!"short_name", path := (.first [k!"SHORT-NAME"] .nil), item := .name, req := .always }] ++
  /- 6497 -/ readSecureCommunicationAuthenticationProps

/-- `readSecureCommunicationPropsSetFreshnessProps`, `parser/arxml_parser.py:6509-6516` (the `SecureCommunicationFreshnessProps` it makes) -/
def readSecureCommunicationPropsSetFreshnessProps_SecureCommunicationFreshnessProps : List RSlot :=
  [/- 6513 -/ { field := k!"short_name", path := (.first [k!"SHORT-NAME"] .nil), item := .name, req := .always }] ++
  /- 6514 -/ readSecureCommunicationFreshnessProps

/-- `readSenderRecArrayTypeMappingRecordElementMapping`, `parser/arxml_parser.py:8726-8734` -/
def readSenderRecArrayTypeMappingRecordElementMapping : List RSlot :=
  [/- 8732 -/ { field := k!"recordElementMappings", path := (.all k!"RECORD-ELEMENT-MAPPINGS" (.all k!"SENDER-REC-RECORD-ELEMENT-MAPPING" .nil)), item := (.objs [(k!"SENDER-REC-RECORD-ELEMENT-MAPPING", k!"readSenderRecArrayTypeMappingRecordElementMapping_SenderRecRecordElementMapping")]) },
   /- 8734 -/ { field := 0, path := (.all k!"RECORD-ELEMENT-MAPPINGS" (.all 0 .nil)), item := (.guard [k!"SENDER-REC-RECORD-ELEMENT-MAPPING"] .unsupported) }]

/-- `readSenderRecRecordElementMapping`, `parser/arxml_parser.py:8720-8724` -/
def readSenderRecRecordElementMapping : List RSlot :=
  [/- 8721 -/ { field := k!"timestamp", path := .nil, item := (.attr k!"T" .raw) },
   /- 8721 -/ { field := k!"uuid", path := .nil, item := (.attr k!"UUID" .raw) },
   /- 8722 -/ { field := k!"applicationRecordElementRef", path := (.first [k!"APPLICATION-RECORD-ELEMENT-REF"] .nil), item := (.prim .ref) },
   /- 8723 -/ { field := k!"implementationRecordElementRef", path := (.first [k!"IMPLEMENTATION-RECORD-ELEMENT-REF"] .nil), item := (.prim .ref) },
   /- 8724 -/ { field := k!"systemSignalRef", path := (.first [k!"SYSTEM-SIGNAL-REF"] .nil), item := (.prim .ref) }]

/-- `readSenderRecArrayTypeMappingRecordElementMapping`, `parser/arxml_parser.py:8726-8734` (the `SenderRecRecordElementMapping` it makes) -/
def readSenderRecArrayTypeMappingRecordElementMapping_SenderRecRecordElementMapping : List RSlot :=
  /- 8731 -/ readSenderRecRecordElementMapping

/-- `readSenderRecRecordTypeMapping`, `parser/arxml_parser.py:8736-8738` -/
def readSenderRecRecordTypeMapping : List RSlot :=
  /- 8737 -/ readPPortComSpec ++
  /- 8738 -/ readSenderRecArrayTypeMappingRecordElementMapping

/-- `readSenderReceiverInterfaceInvalidationPolicies`, `parser/arxml_parser.py:5013-5018` (the `InvalidationPolicy` it makes) -/
def readSenderReceiverInterfaceInvalidationPolicies_InvalidationPolicy : List RSlot :=
  [/- 5016 -/ { field := k!"dataElementRef", path := (.first [k!"DATA-ELEMENT-REF"] .nil), item := (.prim .ref) },
   /- 5017 -/ { field := k!"handleInvalid", path := (.first [k!"HANDLE-INVALID"] .nil), item := (.prim .lit) }]

/-- `readSenderReceiverToSignalGroupMappingTypeMapping`, `parser/arxml_parser.py:8740-8749` -/
def readSenderReceiverToSignalGroupMappingTypeMapping : List RSlot :=
  [/- 8747 -/ { field := k!"typeMapping", path := (.first [k!"TYPE-MAPPING", 0] .nil), item := (.objs [(k!"SENDER-REC-RECORD-TYPE-MAPPING", k!"readSenderReceiverToSignalGroupMappingTypeMapping_SenderRecRecordTypeMapping")]) },
   /- 8749 -/ { field := 0, path := (.first [k!"TYPE-MAPPING", 0] .nil), item := (.guard [k!"SENDER-REC-RECORD-TYPE-MAPPING"] .unsupported) }]

/-- `readSenderReceiverToSignalGroupMapping`, `parser/arxml_parser.py:8751-8754` -/
def readSenderReceiverToSignalGroupMapping : List RSlot :=
  [/- 8752 -/ { field := k!"dataElementIRef", path := (.first [k!"DATA-ELEMENT-IREF"] .nil), item := (.objs [(k!"DATA-ELEMENT-IREF", k!"getVariableDataPrototypeInSystemInstanceRef_VariableDataPrototypeInSystemInstanceRef")]) },
   /- 8753 -/ { field := k!"signalGroupRef", path := (.first [k!"SIGNAL-GROUP-REF"] .nil), item := (.prim .ref) }] ++
  /- 8754 -/ readSenderReceiverToSignalGroupMappingTypeMapping

/-- `readSenderReceiverToSignalGroupMappingTypeMapping`, `parser/arxml_parser.py:8740-8749` (the `SenderRecRecordTypeMapping` it makes) -/
def readSenderReceiverToSignalGroupMappingTypeMapping_SenderRecRecordTypeMapping : List RSlot :=
  /- 8746 -/ readSenderRecRecordTypeMapping

/-- `readSenderReceiverToSignalMapping`, `parser/arxml_parser.py:8711-8715` -/
def readSenderReceiverToSignalMapping : List RSlot :=
  [/- 8712 -/ { field := k!"communicationDirection", path := (.first [k!"COMMUNICATION-DIRECTION"] .nil), item := (.prim .lit) },
   /- 8713 -/ { field := k!"dataElementIRef", path := (.first [k!"DATA-ELEMENT-IREF"] .nil), item := (.objs [(k!"DATA-ELEMENT-IREF", k!"getVariableDataPrototypeInSystemInstanceRef_VariableDataPrototypeInSystemInstanceRef")]) },
   /- 8714 -/ { field := k!"systemSignalRef", path := (.first [k!"SYSTEM-SIGNAL-REF"] .nil), item := (.prim .ref) }]

/-- `readServiceDependency`, `parser/arxml_parser.py:1406-1414` -/
def readServiceDependency_SwcServiceDependency : List RSlot :=
  /- 1407 -/ readIdentifiable ++
  [/- 1411 -/ { field := k!"assignedDataTypes", path := (.all k!"ASSIGNED-DATA-TYPES" (.all k!"ROLE-BASED-DATA-TYPE-ASSIGNMENT" .nil)), item := (.objs [(k!"ROLE-BASED-DATA-TYPE-ASSIGNMENT", k!"getRoleBasedDataTypeAssignment_RoleBasedDataTypeAssignment")]) },
   /- 1413 -/ { field := 0, path := (.all k!"ASSIGNED-DATA-TYPES" (.all 0 .nil)), item := (.guard [k!"ROLE-BASED-DATA-TYPE-ASSIGNMENT"] .unsupported) }] ++
  /- 1414 -/ readSymbolicNameProps

/-- `readSignalServiceTranslationElementProps`, `parser/arxml_parser.py:8592-8596` -/
def readSignalServiceTranslationElementProps : List RSlot :=
  /- 8594 -/ readIdentifiable ++
  [/- 8595 -/ { field := k!"filter", path := (.first [k!"FILTER"] .nil), item := (.objs [(k!"FILTER", k!"getDataFilter_DataFilter")]) },
   /- 8596 -/ { field := k!"transmissionTrigger", path := (.first [k!"TRANSMISSION-TRIGGER"] .nil), item := (.prim .boolean) }]

/-- `readSignalServiceTranslationEventProps`, `parser/arxml_parser.py:8582-8590` -/
def readSignalServiceTranslationEventProps : List RSlot :=
  /- 8584 -/ readIdentifiable ++
  [/- 8586 -/ { field := k!"elementProps", path := (.all k!"SIGNAL-SERVICE-TRANSLATION-ELEMENT-PROPS" .nil), item := (.objs [(k!"SIGNAL-SERVICE-TRANSLATION-ELEMENT-PROPS", k!"readSignalServiceTranslationEventProps_SignalServiceTranslationElementProps")]), elems := true, named := true, fresh := true },
   /- 8588 -/ { field := k!"safeTranslation", path := (.first [k!"SAFE-TRANSLATION"] .nil), item := (.prim .boolean) },
   /- 8589 -/ { field := k!"secureTranslation", path := (.first [k!"SECURE-TRANSLATION"] .nil), item := (.prim .boolean) },
   /- 8590 -/ { field := k!"translationTarget", path := (.first [k!"TRANSLATION-TARGET"] .nil), item := (.objs [(k!"TRANSLATION-TARGET", k!"getVariableDataPrototypeInSystemInstanceRef_VariableDataPrototypeInSystemInstanceRef")]) }]

/-- `readSignalServiceTranslationEventProps`, `parser/arxml_parser.py:8582-8590` (the `SignalServiceTranslationElementProps` it makes) -/
def readSignalServiceTranslationEventProps_SignalServiceTranslationElementProps : List RSlot :=
  [/- 8586 -/ { field := k!"short_name", path := (.first [k!"SHORT-NAME"] .nil), item := .name, req := .always }] ++
  /- 8587 -/ readSignalServiceTranslationElementProps

/-- `readSignalServiceTranslationProps`, `parser/arxml_parser.py:8568-8580` -/
def readSignalServiceTranslationProps : List RSlot :=
  /- 8570 -/ readIdentifiable ++
  [/- 8572 -/ { field := k!"controlConsumedEventGroupRefs", path := (.all k!"CONTROL-CONSUMED-EVENT-GROUP-REFS" (.all k!"CONTROL-CONSUMED-EVENT-GROUP-REF" .nil)), item := (.prim .ref) },
   /- 8574 -/ { field := k!"controlPncRefs", path := (.all k!"CONTROL-PNC-REFS" (.all k!"CONTROL-PNC-REF" .nil)), item := (.prim .ref) },
   /- 8576 -/ { field := k!"controlProvidedEventGroupRefs", path := (.all k!"CONTROL-PROVIDED-EVENT-GROUP-REFS" (.all k!"CONTROL-PROVIDED-EVENT-GROUP-REF" .nil)), item := (.prim .ref) },
   /- 8577 -/ { field := k!"serviceControl", path := (.first [k!"SERVICE-CONTROL"] .nil), item := (.prim .lit) },
   /- 8579 -/ { field := k!"signalServiceTranslationEventProps", path := (.all k!"SIGNAL-SERVICE-TRANSLATION-EVENT-PROPS" .nil), item := (.objs [(k!"SIGNAL-SERVICE-TRANSLATION-EVENT-PROPS", k!"readSignalServiceTranslationProps_SignalServiceTranslationEventProps")]), elems := true, named := true, fresh := true }]

/-- `readSignalServiceTranslationPropsSet`, `parser/arxml_parser.py:8561-8566` (the `SignalServiceTranslationProps` it makes) -/
def readSignalServiceTranslationPropsSet_SignalServiceTranslationProps : List RSlot :=
  [/- 8565 -/ { field := k!"short_name", path := (.first [k!"SHORT-NAME"] .nil), item := .name, req := .always }] ++
  /- 8566 -/ readSignalServiceTranslationProps

/-- `readSignalServiceTranslationProps`, `parser/arxml_parser.py:8568-8580` (the `SignalServiceTranslationEventProps` it makes) -/
def readSignalServiceTranslationProps_SignalServiceTranslationEventProps : List RSlot :=
  [/- 8579 -/ { field := k!"short_name", path := (.first [k!"SHORT-NAME"] .nil), item := .name, req := .always }] ++
  /- 8580 -/ readSignalServiceTranslationEventProps

/-- `readSocketConnectionBundleConnections`, `parser/arxml_parser.py:6006-6012` -/
def readSocketConnectionBundleConnections : List RSlot :=
  [/- 6010 -/ { field := k!"bundledConnections", path := (.all k!"BUNDLED-CONNECTIONS" (.all k!"SOCKET-CONNECTION" .nil)), item := (.objs [(k!"SOCKET-CONNECTION", k!"getSocketConnection_SocketConnection")]) },
   /- 6012 -/ { field := 0, path := (.all k!"BUNDLED-CONNECTIONS" (.all 0 .nil)), item := (.guard [k!"SOCKET-CONNECTION"] .unsupported) }]

/-- `readSocketConnectionBundle`, `parser/arxml_parser.py:6014-6016` -/
def readSocketConnectionBundle : List RSlot :=
  /- 6015 -/ readSocketConnectionBundleConnections ++
  [/- 6016 -/ { field := k!"serverPortRef", path := (.first [k!"SERVER-PORT-REF"] .nil), item := (.prim .ref) }]

/-- `readSoAdConfigConnectionBundles`, `parser/arxml_parser.py:6018-6025` (the `SocketConnectionBundle` it makes) -/
def readSoAdConfigConnectionBundles_SocketConnectionBundle : List RSlot :=
  [/- 6022 -/ { field := k!"short_name", path := (.first [k!"SHORT-NAME"] .nil), item := .name, req := .always }] ++
  /- 6023 -/ readSocketConnectionBundle

/-- `readSocketAddressApplicationEndpoint`, `parser/arxml_parser.py:6200-6208` -/
def readSocketAddressApplicationEndpoint : List RSlot :=
  [/- 6203 -/ { field := k!"applicationEndpoint", path := (.first [k!"APPLICATION-ENDPOINT"] .nil), item := (.objs [(k!"APPLICATION-ENDPOINT", k!"readSocketAddressApplicationEndpoint_ApplicationEndpoint")]), named := true, fresh := true }]

/-- `readSocketAddressMulticastConnectorRefs`, `parser/arxml_parser.py:6210-6212` -/
def readSocketAddressMulticastConnectorRefs : List RSlot :=
  [/- 6212 -/ { field := k!"multicastConnectorRefs", path := (.all k!"MULTICAST-CONNECTOR-REFS" (.all k!"MULTICAST-CONNECTOR-REF" .nil)), item := (.prim .ref) }]

/-- `readSocketAddress`, `parser/arxml_parser.py:6214-6219` -/
def readSocketAddress : List RSlot :=
  /- 6215 -/ readIdentifiable ++
  /- 6216 -/ readSocketAddressApplicationEndpoint ++
  /- 6217 -/ readSocketAddressMulticastConnectorRefs ++
  [/- 6218 -/ { field := k!"connectorRef", path := (.first [k!"CONNECTOR-REF"] .nil), item := (.prim .ref) },
   /- 6219 -/ { field := k!"portAddress", path := (.first [k!"PORT-ADDRESS"] .nil), item := (.prim .positive) }]

/-- `readSoAdConfigSocketAddresses`, `parser/arxml_parser.py:6221-6228` (the `SocketAddress` it makes) -/
def readSoAdConfigSocketAddresses_SocketAddress : List RSlot :=
  [/- 6225 -/ { field := k!"short_name", path := (.first [k!"SHORT-NAME"] .nil), item := .name, req := .always }] ++
  /- 6226 -/ readSocketAddress

/-- `readSocketAddressApplicationEndpointConsumedServiceInstances`, `parser/arxml_parser.py:6116-6123` -/
def readSocketAddressApplicationEndpointConsumedServiceInstances : List RSlot :=
  [/- 6120 -/ { field := k!"consumedServiceInstances", path := (.all k!"CONSUMED-SERVICE-INSTANCES" (.all k!"CONSUMED-SERVICE-INSTANCE" .nil)), item := (.objs [(k!"CONSUMED-SERVICE-INSTANCE", k!"readSocketAddressApplicationEndpointConsumedServiceInstances_ConsumedServiceInstance")]), elems := true, named := true, fresh := true },
   /- 6123 -/ { field := 0, path := (.all k!"CONSUMED-SERVICE-INSTANCES" (.all 0 .nil)), item := (.guard [k!"CONSUMED-SERVICE-INSTANCE"] .unsupported) }]

/-- `readSocketAddressApplicationEndpointConsumedServiceInstances`, `parser/arxml_parser.py:6116-6123` (the `ConsumedServiceInstance` it makes) -/
def readSocketAddressApplicationEndpointConsumedServiceInstances_ConsumedServiceInstance : List RSlot :=
  [/- 6120 -/ { field := k!"short_name", path := (.first [k!"SHORT-NAME"] .nil), item := .name, req := .always }] ++
  /- 6121 -/ readConsumedServiceInstance

/-- `readSocketAddressApplicationEndpointProvidedServiceInstance`, `parser/arxml_parser.py:6191-6198` -/
def readSocketAddressApplicationEndpointProvidedServiceInstance : List RSlot :=
  [/- 6195 -/ { field := k!"providedServiceInstances", path := (.all k!"PROVIDED-SERVICE-INSTANCES" (.all k!"PROVIDED-SERVICE-INSTANCE" .nil)), item := (.objs [(k!"PROVIDED-SERVICE-INSTANCE", k!"readSocketAddressApplicationEndpointProvidedServiceInstance_ProvidedServiceInstance")]), elems := true, named := true, fresh := true },
   /- 6198 -/ { field := 0, path := (.all k!"PROVIDED-SERVICE-INSTANCES" (.all 0 .nil)), item := (.guard [k!"PROVIDED-SERVICE-INSTANCE"] .unsupported) }]

/-- `readSocketAddressApplicationEndpointProvidedServiceInstance`, `parser/arxml_parser.py:6191-6198` (the `ProvidedServiceInstance` it makes) -/
def readSocketAddressApplicationEndpointProvidedServiceInstance_ProvidedServiceInstance : List RSlot :=
  [/- 6195 -/ { field := k!"short_name", path := (.first [k!"SHORT-NAME"] .nil), item := .name, req := .always }] ++
  /- 6196 -/ readProvidedServiceInstance

/-- `readSocketAddressApplicationEndpoint`, `parser/arxml_parser.py:6200-6208` (the `ApplicationEndpoint` it makes) -/
def readSocketAddressApplicationEndpoint_ApplicationEndpoint : List RSlot :=
  [/- 6203 -/ { field := k!"short_name", path := (.first [k!"SHORT-NAME"] .nil), item := .name, req := .always }] ++
  /- 6204 -/ readSocketAddressApplicationEndpointConsumedServiceInstances ++
  [/- 6205 -/ { field := k!"networkEndpointRef", path := (.first [k!"NETWORK-ENDPOINT-REF"] .nil), item := (.prim .ref) },
   /- 6206 -/ { field := k!"priority", path := (.first [k!"PRIORITY"] .nil), item := (.prim .positive) }] ++
  /- 6207 -/ readSocketAddressApplicationEndpointProvidedServiceInstance ++
  [/- 6208 -/ { field := k!"tpConfiguration", path := (.first [k!"TP-CONFIGURATION", 0] .nil), item := (.objs [(k!"UDP-TP", k!"getTransportProtocolConfiguration_UdpTp"), (k!"TCP-TP", k!"getTransportProtocolConfiguration_TcpTp"), (k!"GENERIC-TP", k!"getTransportProtocolConfiguration_GenericTp")]) },
   /- 6066 -/ { field := 0, path := (.first [k!"TP-CONFIGURATION", 0] .nil), item := (.guard [k!"UDP-TP", k!"TCP-TP", k!"GENERIC-TP"] .unsupported) }]

/-- `readStackUsages`, `parser/arxml_parser.py:2773-2786` (the `MeasuredStackUsage` it makes) -/
def readStackUsages_MeasuredStackUsage : List RSlot :=
  [/- 2780 -/ { field := k!"short_name", path := (.first [k!"SHORT-NAME"] .nil), item := .name, req := .always }] ++
  /- 2781 -/ readMeasuredStackUsage

/-- `readStackUsages`, `parser/arxml_parser.py:2773-2786` (the `WorstCaseStackUsage` it makes) -/
def readStackUsages_WorstCaseStackUsage : List RSlot :=
  [/- 2783 -/ { field := k!"short_name", path := (.first [k!"SHORT-NAME"] .nil), item := .name, req := .always }] ++
  /- 2784 -/ readWorstCaseStackUsage

/-- `readSwCalprmRefProxy`, `parser/arxml_parser.py:4059-4063` (the `SwCalprmRefProxy` it makes) -/
def readSwCalprmRefProxy_SwCalprmRefProxy : List RSlot :=
  [/- 4061 -/ { field := k!"arParameter", path := (.first [k!"AR-PARAMETER"] .nil), item := (.objs [(k!"AR-PARAMETER", k!"getAutosarParameterRef_AutosarParameterRef")]) },
   /- 4062 -/ { field := k!"mcDataInstanceRef", path := (.first [k!"MC-DATA-INSTANCE-REF"] .nil), item := (.prim .ref) }]

/-- `readSwComponentDocumentationElement`, `parser/arxml_parser.py:4601-4620` (the `SwComponentDocumentation` it makes) -/
def readSwComponentDocumentationElement_SwComponentDocumentation : List RSlot :=
  [/- 4615 -/ { field := k!"swFeatureDef", path := (.first [k!"SW-FEATURE-DEF"] .nil), item := (.objs [(k!"SW-FEATURE-DEF", k!"readChapter_Chapter")]), named := true },
   /- 4615 -/ { field := k!"swFeatureDesc", path := (.first [k!"SW-FEATURE-DESC"] .nil), item := (.objs [(k!"SW-FEATURE-DESC", k!"readChapter_Chapter")]), named := true },
   /- 4615 -/ { field := k!"swTestDesc", path := (.first [k!"SW-TEST-DESC"] .nil), item := (.objs [(k!"SW-TEST-DESC", k!"readChapter_Chapter")]), named := true },
   /- 4615 -/ { field := k!"swCalibrationNotes", path := (.first [k!"SW-CALIBRATION-NOTES"] .nil), item := (.objs [(k!"SW-CALIBRATION-NOTES", k!"readChapter_Chapter")]), named := true },
   /- 4615 -/ { field := k!"swMaintenanceNotes", path := (.first [k!"SW-MAINTENANCE-NOTES"] .nil), item := (.objs [(k!"SW-MAINTENANCE-NOTES", k!"readChapter_Chapter")]), named := true },
   /- 4615 -/ { field := k!"swDiagnosticsNotes", path := (.first [k!"SW-DIAGNOSTICS-NOTES"] .nil), item := (.objs [(k!"SW-DIAGNOSTICS-NOTES", k!"readChapter_Chapter")]), named := true },
   /- 4615 -/ { field := k!"swCarbDoc", path := (.first [k!"SW-CARB-DOC"] .nil), item := (.objs [(k!"SW-CARB-DOC", k!"readChapter_Chapter")]), named := true },
   /- 4618 -/ { field := k!"chapters", path := (.all k!"CHAPTER" .nil), item := (.objs [(k!"CHAPTER", k!"readChapter_Chapter")]), named := true }]

/-- `readSwComponentTypePorts`, `parser/arxml_parser.py:4406-4419` (the `PPortPrototype` it makes) -/
def readSwComponentTypePorts_PPortPrototype : List RSlot :=
  [/- 4410 -/ { field := k!"short_name", path := (.first [k!"SHORT-NAME"] .nil), item := .name, req := .always }] ++
  /- 4411 -/ readPPortPrototype

/-- `readSwComponentTypePorts`, `parser/arxml_parser.py:4406-4419` (the `PRPortPrototype` it makes) -/
def readSwComponentTypePorts_PRPortPrototype : List RSlot :=
  [/- 4416 -/ { field := k!"short_name", path := (.first [k!"SHORT-NAME"] .nil), item := .name, req := .always }] ++
  /- 4417 -/ readPRPortPrototype

/-- `readSwComponentTypePorts`, `parser/arxml_parser.py:4406-4419` (the `RPortPrototype` it makes) -/
def readSwComponentTypePorts_RPortPrototype : List RSlot :=
  [/- 4413 -/ { field := k!"short_name", path := (.first [k!"SHORT-NAME"] .nil), item := .name, req := .always }] ++
  /- 4414 -/ readRPortPrototype

/-- `readSwDataDefPropsBits`, `parser/arxml_parser.py:4006-4019` (the `SwBitRepresentation` it makes) -/
def readSwDataDefPropsBits_SwBitRepresentation : List RSlot :=
  [/- 4010 -/ { field := k!"bitPosition", path := (.first [k!"BIT-POSITION"] .nil), item := (.prim .integer) },
   /- 4011 -/ { field := k!"numberOfBits", path := (.first [k!"NUMBER-OF-BITS"] .nil), item := (.prim .integer) }]

/-- `readSwDataDependency`, `parser/arxml_parser.py:4036-4057` (the `CompuGenericMath` it makes) -/
def readSwDataDependency_CompuGenericMath : List RSlot :=
  [/- 4045 -/ { field := k!"level", path := .nil, item := (.attr k!"LEVEL" .lit) }]

/-- `readSwDataDependency`, `parser/arxml_parser.py:4036-4057` (the `SwDataDependency` it makes) -/
def readSwDataDependency_SwDataDependency : List RSlot :=
  [/- 4046 -/ { field := k!"swDataDependencyFormula", path := (.first [k!"SW-DATA-DEPENDENCY-FORMULA"] .nil), item := (.objs [(k!"SW-DATA-DEPENDENCY-FORMULA", k!"readSwDataDependency_CompuGenericMath")]) },
   /- 4056 -/ { field := k!"swDataDependencyArgs", path := (.first [k!"SW-DATA-DEPENDENCY-ARGS"] .nil), item := (.objs [(k!"SW-DATA-DEPENDENCY-ARGS", k!"readSwDataDependency_SwDataDependencyArgs")]) }]

/-- `readSwDataDependency`, `parser/arxml_parser.py:4036-4057` (the `SwDataDependencyArgs` it makes) -/
def readSwDataDependency_SwDataDependencyArgs : List RSlot :=
  [/- 4052 -/ { field := k!"swCalprmRef", path := (.first [k!"SW-CALPRM-REF-PROXY"] .nil), item := (.objs [(k!"SW-CALPRM-REF-PROXY", k!"readSwCalprmRefProxy_SwCalprmRefProxy")]) },
   /- 4055 -/ { field := k!"swVariable", path := (.first [k!"SW-VARIABLE-REF-PROXY"] .nil), item := (.objs [(k!"SW-VARIABLE-REF-PROXY", k!"readSwVariableRefProxy_SwVariableRefProxy")]) }]

/-- `readSwSystemconstValue`, `parser/arxml_parser.py:7823-7827` -/
def readSwSystemconstValue : List RSlot :=
  [/- 3893 -/ { field := 0, path := (.all k!"ANNOTATIONS" (.all 0 .nil)), item := (.guard [k!"ANNOTATION"] .unsupported) },
   /- 7825 -/ { field := k!"annotations", path := (.all k!"ANNOTATIONS" (.all k!"ANNOTATION" .nil)), item := (.objs [(k!"ANNOTATION", k!"getAnnotations_Annotation")]) },
   /- 7826 -/ { field := k!"swSystemconstRef", path := (.first [k!"SW-SYSTEMCONST-REF"] .nil), item := (.prim .ref) },
   /- 7827 -/ { field := k!"value", path := (.first [k!"VALUE"] .nil), item := (.prim .numerical) }]

/-- `readSwSystemconstantValueSetSwSystemconstantValues`, `parser/arxml_parser.py:7829-7837` (the `SwSystemconstValue` it makes) -/
def readSwSystemconstantValueSetSwSystemconstantValues_SwSystemconstValue : List RSlot :=
  /- 7834 -/ readSwSystemconstValue

/-- `readSwVariableRefProxy`, `parser/arxml_parser.py:4030-4034` (the `SwVariableRefProxy` it makes) -/
def readSwVariableRefProxy_SwVariableRefProxy : List RSlot :=
  [/- 4032 -/ { field := k!"autosarVariable", path := (.first [k!"AUTOSAR-VARIABLE"] .nil), item := (.objs [(k!"AUTOSAR-VARIABLE", k!"getAutosarVariableRef_AutosarVariableRef")]) },
   /- 4033 -/ { field := k!"mcDataInstanceVarRef", path := (.first [k!"MC-DATA-INSTANCE-VAR-REF"] .nil), item := (.prim .ref) }]

/-- `readSwcBswMappingSwcBswRunnableMappings`, `parser/arxml_parser.py:5216-5221` (the `SwcBswRunnableMapping` it makes) -/
def readSwcBswMappingSwcBswRunnableMappings_SwcBswRunnableMapping : List RSlot :=
  [/- 5219 -/ { field := k!"bswEntityRef", path := (.first [k!"BSW-ENTITY-REF"] .nil), item := (.prim .ref) },
   /- 5220 -/ { field := k!"swcRunnableRef", path := (.first [k!"SWC-RUNNABLE-REF"] .nil), item := (.prim .ref) }]

/-- `readSwcBswSynchronizedModeGroupPrototype`, `parser/arxml_parser.py:5223-5231` (the `SwcBswSynchronizedModeGroupPrototype` it makes) -/
def readSwcBswSynchronizedModeGroupPrototype_SwcBswSynchronizedModeGroupPrototype : List RSlot :=
  [/- 5225 -/ { field := k!"bswModeGroupRef", path := (.first [k!"BSW-MODE-GROUP-REF"] .nil), item := (.prim .ref) },
   /- 5230 -/ { field := k!"swcModeGroupIRef", path := (.first [k!"SWC-MODE-GROUP-IREF"] .nil), item := (.objs [(k!"SWC-MODE-GROUP-IREF", k!"getModeGroupIRef_PModeGroupInAtomicSwcInstanceRef")]) }]

/-- `readSwcBswSynchronizedTrigger`, `parser/arxml_parser.py:5233-5241` (the `SwcBswSynchronizedTrigger` it makes) -/
def readSwcBswSynchronizedTrigger_SwcBswSynchronizedTrigger : List RSlot :=
  [/- 5235 -/ { field := k!"bswTriggerRef", path := (.first [k!"BSW-TRIGGER-REF"] .nil), item := (.prim .ref) },
   /- 5240 -/ { field := k!"swcTriggerIRef", path := (.first [k!"SWC-TRIGGER-IREF"] .nil), item := (.objs [(k!"SWC-TRIGGER-IREF", k!"readSwcBswSynchronizedTrigger_PTriggerInAtomicSwcTypeInstanceRef")]) }]

/-- `readSwcInternalBehaviorEvents`, `parser/arxml_parser.py:3521-3555` (the `DataSendCompletedEvent` it makes) -/
def readSwcInternalBehaviorEvents_DataSendCompletedEvent : List RSlot :=
  [/- 3552 -/ { field := k!"short_name", path := (.first [k!"SHORT-NAME"] .nil), item := .name, req := .always }] ++
  /- 3553 -/ readDataSendCompletedEvent

/-- `readSwcInternalBehaviorEvents`, `parser/arxml_parser.py:3521-3555` (the `InitEvent` it makes) -/
def readSwcInternalBehaviorEvents_InitEvent : List RSlot :=
  [/- 3540 -/ { field := k!"short_name", path := (.first [k!"SHORT-NAME"] .nil), item := .name, req := .always }] ++
  /- 3541 -/ readInitEvent

/-- `readSwcInternalBehaviorEvents`, `parser/arxml_parser.py:3521-3555` (the `DataReceivedEvent` it makes) -/
def readSwcInternalBehaviorEvents_DataReceivedEvent : List RSlot :=
  [/- 3534 -/ { field := k!"short_name", path := (.first [k!"SHORT-NAME"] .nil), item := .name, req := .always }] ++
  /- 3535 -/ readDataReceivedEvent

/-- `readSwcInternalBehaviorEvents`, `parser/arxml_parser.py:3521-3555` (the `ModeSwitchedAckEvent` it makes) -/
def readSwcInternalBehaviorEvents_ModeSwitchedAckEvent : List RSlot :=
  [/- 3546 -/ { field := k!"short_name", path := (.first [k!"SHORT-NAME"] .nil), item := .name, req := .always }] ++
  /- 3547 -/ readModeSwitchedAckEvent

/-- `readSwcInternalBehaviorEvents`, `parser/arxml_parser.py:3521-3555` (the `OperationInvokedEvent` it makes) -/
def readSwcInternalBehaviorEvents_OperationInvokedEvent : List RSlot :=
  [/- 3531 -/ { field := k!"short_name", path := (.first [k!"SHORT-NAME"] .nil), item := .name, req := .always }] ++
  /- 3532 -/ readOperationInvokedEvent

/-- `readSwcModeSwitchEvent`, `parser/arxml_parser.py:3485-3491` -/
def readSwcModeSwitchEvent : List RSlot :=
  /- 3487 -/ readRTEEvent ++
  [/- 3490 -/ { field := k!"activation", path := (.first [k!"ACTIVATION"] .nil), item := (.prim .litPlain) }] ++
  /- 3491 -/ readRModeInAtomicSwcInstanceRef

/-- `readSwcInternalBehaviorEvents`, `parser/arxml_parser.py:3521-3555` (the `SwcModeSwitchEvent` it makes) -/
def readSwcInternalBehaviorEvents_SwcModeSwitchEvent : List RSlot :=
  [/- 3528 -/ { field := k!"short_name", path := (.first [k!"SHORT-NAME"] .nil), item := .name, req := .always }] ++
  /- 3529 -/ readSwcModeSwitchEvent

/-- `readTimingEvent`, `parser/arxml_parser.py:3474-3478` -/
def readTimingEvent : List RSlot :=
  /- 3476 -/ readRTEEvent ++
  [/- 3477 -/ { field := k!"offset", path := (.first [k!"OFFSET"] .nil), item := (.prim .time) },
   /- 3478 -/ { field := k!"period", path := (.first [k!"PERIOD"] .nil), item := (.prim .time) }]

/-- `readSwcInternalBehaviorEvents`, `parser/arxml_parser.py:3521-3555` (the `TimingEvent` it makes) -/
def readSwcInternalBehaviorEvents_TimingEvent : List RSlot :=
  [/- 3525 -/ { field := k!"short_name", path := (.first [k!"SHORT-NAME"] .nil), item := .name, req := .always }] ++
  /- 3526 -/ readTimingEvent

/-- `readSwcInternalBehaviorExclusiveAreaPolicies`, `parser/arxml_parser.py:2074-2079` (the `SwcExclusiveAreaPolicy` it makes) -/
def readSwcInternalBehaviorExclusiveAreaPolicies_SwcExclusiveAreaPolicy : List RSlot :=
  [/- 2077 -/ { field := k!"apiPrinciple", path := (.first [k!"API-PRINCIPLE"] .nil), item := (.prim .lit) },
   /- 2078 -/ { field := k!"exclusiveAreaRef", path := (.first [k!"EXCLUSIVE-AREA-REF"] .nil), item := (.prim .ref) }]

/-- `readSwcInternalBehaviorIncludedModeDeclarationGroupSets`, `parser/arxml_parser.py:2064-2072` (the `IncludedModeDeclarationGroupSet` it makes) -/
def readSwcInternalBehaviorIncludedModeDeclarationGroupSets_IncludedModeDeclarationGroupSet : List RSlot :=
  /- 2069 -/ readIncludedModeDeclarationGroupSet

/-- `readSwcInternalBehaviorPerInstanceMemories`, `parser/arxml_parser.py:3431-3439` (the `PerInstanceMemory` it makes) -/
def readSwcInternalBehaviorPerInstanceMemories_PerInstanceMemory : List RSlot :=
  [/- 3434 -/ { field := k!"short_name", path := (.first [k!"SHORT-NAME"] .nil), item := .name, req := .always }] ++
  /- 3435 -/ readIdentifiable ++
  [/- 3436 -/ { field := k!"initValue", path := (.first [k!"INIT-VALUE"] .nil), item := (.prim .lit) },
   /- 3437 -/ { field := k!"swDataDefProps", path := (.first [k!"SW-DATA-DEF-PROPS"] .nil), item := (.objs [(k!"SW-DATA-DEF-PROPS", k!"getSwDataDefProps_SwDataDefProps")]) },
   /- 3438 -/ { field := k!"type", path := (.first [k!"TYPE"] .nil), item := (.prim .lit) },
   /- 3439 -/ { field := k!"typeDefinition", path := (.first [k!"TYPE-DEFINITION"] .nil), item := (.prim .lit) }]

/-- `readSwcInternalBehaviorPortAPIOptions`, `parser/arxml_parser.py:3463-3472` (the `PortAPIOption` it makes) -/
def readSwcInternalBehaviorPortAPIOptions_PortAPIOption : List RSlot :=
  [/- 3466 -/ { field := k!"enableTakeAddress", path := (.first [k!"ENABLE-TAKE-ADDRESS"] .nil), item := (.prim .boolean) },
   /- 3467 -/ { field := k!"errorHandling", path := (.first [k!"ERROR-HANDLING"] .nil), item := (.prim .lit) },
   /- 3468 -/ { field := k!"indirectAPI", path := (.first [k!"INDIRECT-API"] .nil), item := (.prim .boolean) },
   /- 3469 -/ { field := k!"portRef", path := (.first [k!"PORT-REF"] .nil), item := (.prim .ref) },
   /- 3471 -/ { field := k!"portArgValues", path := (.all k!"PORT-ARG-VALUES" (.all k!"PORT-DEFINED-ARGUMENT-VALUE" .nil)), item := (.objs [(k!"PORT-DEFINED-ARGUMENT-VALUE", k!"readPortDefinedArgumentValue_PortDefinedArgumentValue")]) }]

/-- `readSwcInternalBehaviorRunnables`, `parser/arxml_parser.py:3375-3382` (the `RunnableEntity` it makes) -/
def readSwcInternalBehaviorRunnables_RunnableEntity : List RSlot :=
  [/- 3379 -/ { field := k!"short_name", path := (.first [k!"SHORT-NAME"] .nil), item := .name, req := .always }] ++
  /- 3380 -/ readRunnableEntity

/-- `readVariationPointProxy`, `parser/arxml_parser.py:2001-2018` -/
def readVariationPointProxy : List RSlot :=
  /- 2002 -/ readIdentifiable ++
  [/- 2005 -/ { field := k!"conditionAccess", path := (.first [k!"CONDITION-ACCESS"] .nil), item := (.objs [(k!"CONDITION-ACCESS", k!"readVariationPoint_ConditionByFormula")]) },
   /- 2006 -/ { field := k!"implementationDataTypeRef", path := (.first [k!"IMPLEMENTATION-DATA-TYPE-REF"] .nil), item := (.prim .ref) },
   /- 2007 -/ { field := k!"postBuildValueAccessRef", path := (.first [k!"POST-BUILD-VALUE-ACCESS-REF"] .nil), item := (.prim .ref) },
   /- 2009 -/ { field := k!"postBuildVariantConditions", path := (.all k!"POST-BUILD-VARIANT-CONDITIONS" (.all k!"POST-BUILD-VARIANT-CONDITION" .nil)), item := (.objs [(k!"POST-BUILD-VARIANT-CONDITION", k!"readVariationPoint_PostBuildVariantCondition")]) },
   /- 2016 -/ { field := k!"valueAccess", path := (.first [k!"VALUE-ACCESS"] (.all 0 .nil)), item := (.objs [(k!"LIMIT", k!"readVariationPointProxy_LimitValueVariationPoint"), (k!"NUMERICAL-VALUE-VARIATION-POINT", k!"readVariationPointProxy_NumericalValueVariationPoint"), (k!"BOOLEAN-VALUE-VARIATION-POINT", k!"readVariationPointProxy_BooleanValueVariationPoint"), (k!"FLOAT-VALUE-VARIATION-POINT", k!"readVariationPointProxy_FloatValueVariationPoint"), (k!"INTEGER-VALUE-VARIATION-POINT", k!"readVariationPointProxy_IntegerValueVariationPoint"), (k!"POSITIVE-INTEGER-VALUE-VARIATION-POINT", k!"readVariationPointProxy_PositiveIntegerValueVariationPoint"), (k!"TIME-VALUE-VARIATION-POINT", k!"readVariationPointProxy_TimeValueValueVariationPoint"), (k!"UNLIMITED-INTEGER-VALUE-VARIATION-POINT", k!"readVariationPointProxy_UnlimitedIntegerValueVariationPoint")]), last := true },
   /- 2018 -/ { field := 0, path := (.first [k!"VALUE-ACCESS"] (.all 0 .nil)), item := (.guard [k!"LIMIT", k!"NUMERICAL-VALUE-VARIATION-POINT", k!"BOOLEAN-VALUE-VARIATION-POINT", k!"FLOAT-VALUE-VARIATION-POINT", k!"INTEGER-VALUE-VARIATION-POINT", k!"POSITIVE-INTEGER-VALUE-VARIATION-POINT", k!"TIME-VALUE-VARIATION-POINT", k!"UNLIMITED-INTEGER-VALUE-VARIATION-POINT"] .unsupported) }]

/-- `readSwcInternalBehaviorVariationPointProxies`, `parser/arxml_parser.py:2052-2057` (the `VariationPointProxy` it makes) -/
def readSwcInternalBehaviorVariationPointProxies_VariationPointProxy : List RSlot :=
  [/- 2055 -/ { field := k!"short_name", path := (.first [k!"SHORT-NAME"] .nil), item := .name, req := .always }] ++
  /- 2056 -/ readVariationPointProxy

/-- `readSwcServiceDependencyAssignedData`, `parser/arxml_parser.py:1597-1603` -/
def readSwcServiceDependencyAssignedData : List RSlot :=
  [/- 1601 -/ { field := k!"assignedData", path := (.all k!"ASSIGNED-DATAS" (.all k!"ROLE-BASED-DATA-ASSIGNMENT" .nil)), item := (.objs [(k!"ROLE-BASED-DATA-ASSIGNMENT", k!"getRoleBasedDataAssignment_RoleBasedDataAssignment")]) },
   /- 1603 -/ { field := 0, path := (.all k!"ASSIGNED-DATAS" (.all 0 .nil)), item := (.guard [k!"ROLE-BASED-DATA-ASSIGNMENT"] .invalid) }]

/-- `readSwcServiceDependencyAssignedPorts`, `parser/arxml_parser.py:1605-1611` -/
def readSwcServiceDependencyAssignedPorts : List RSlot :=
  [/- 1609 -/ { field := k!"assignedPort", path := (.all k!"ASSIGNED-PORTS" (.all k!"ROLE-BASED-PORT-ASSIGNMENT" .nil)), item := (.objs [(k!"ROLE-BASED-PORT-ASSIGNMENT", k!"getRoleBasedPortAssignment_RoleBasedPortAssignment")]) },
   /- 1611 -/ { field := 0, path := (.all k!"ASSIGNED-PORTS" (.all 0 .nil)), item := (.guard [k!"ROLE-BASED-PORT-ASSIGNMENT"] .invalid) }]

/-- `readSwcServiceDependencyRepresentedPortGroup`, `parser/arxml_parser.py:1955-1958` -/
def readSwcServiceDependencyRepresentedPortGroup : List RSlot :=
  [/- 1958 -/ { field := k!"representedPortGroup", path := (.first [k!"REPRESENTED-PORT-GROUP-REF"] .nil), item := (.prim .ref) }]

/-- `readSwcServiceDependencyServiceNeeds`, `parser/arxml_parser.py:1865-1953` -/
def readSwcServiceDependencyServiceNeeds : List RSlot :=
  [/- 1869 -/ { field := k!"serviceNeeds", path := (.all k!"SERVICE-NEEDS" (.all 0 .nil)), item := (.objs [(k!"NV-BLOCK-NEEDS", k!"readNvBlockDescriptor_NvBlockNeeds"), (k!"DIAGNOSTIC-COMMUNICATION-MANAGER-NEEDS", k!"readBswServiceDependencyServiceNeeds_DiagnosticCommunicationManagerNeeds"), (k!"DIAGNOSTIC-ROUTINE-NEEDS", k!"readBswServiceDependencyServiceNeeds_DiagnosticRoutineNeeds"), (k!"DIAGNOSTIC-VALUE-NEEDS", k!"readBswServiceDependencyServiceNeeds_DiagnosticValueNeeds"), (k!"DIAGNOSTIC-EVENT-NEEDS", k!"readBswServiceDependencyServiceNeeds_DiagnosticEventNeeds"), (k!"DIAGNOSTIC-EVENT-INFO-NEEDS", k!"readBswServiceDependencyServiceNeeds_DiagnosticEventInfoNeeds"), (k!"DIAGNOSTIC-IO-CONTROL-NEEDS", k!"readBswServiceDependencyServiceNeeds_DiagnosticIoControlNeeds"), (k!"CRYPTO-SERVICE-NEEDS", k!"readBswServiceDependencyServiceNeeds_CryptoServiceNeeds"), (k!"ECU-STATE-MGR-USER-NEEDS", k!"readBswServiceDependencyServiceNeeds_EcuStateMgrUserNeeds"), (k!"DTC-STATUS-CHANGE-NOTIFICATION-NEEDS", k!"readBswServiceDependencyServiceNeeds_DtcStatusChangeNotificationNeeds"), (k!"DLT-USER-NEEDS", k!"readBswServiceDependencyServiceNeeds_DltUserNeeds"), (k!"COM-MGR-USER-NEEDS", k!"readBswServiceDependencyServiceNeeds_ComMgrUserNeeds"), (k!"ERROR-TRACER-NEEDS", k!"readBswServiceDependencyServiceNeeds_ErrorTracerNeeds"), (k!"DIAGNOSTIC-ENABLE-CONDITION-NEEDS", k!"readBswServiceDependencyServiceNeeds_DiagnosticEnableConditionNeeds"), (k!"DIAGNOSTIC-OPERATION-CYCLE-NEEDS", k!"readBswServiceDependencyServiceNeeds_DiagnosticOperationCycleNeeds"), (k!"DIAGNOSTIC-STORAGE-CONDITION-NEEDS", k!"readBswServiceDependencyServiceNeeds_DiagnosticStorageConditionNeeds"), (k!"INDICATOR-STATUS-NEEDS", k!"readBswServiceDependencyServiceNeeds_IndicatorStatusNeeds"), (k!"FUNCTION-INHIBITION-AVAILABILITY-NEEDS", k!"readBswServiceDependencyServiceNeeds_FunctionInhibitionAvailabilityNeeds"), (k!"OBD-INFO-SERVICE-NEEDS", k!"readBswServiceDependencyServiceNeeds_ObdInfoServiceNeeds"), (k!"OBD-MONITOR-SERVICE-NEEDS", k!"readBswServiceDependencyServiceNeeds_ObdMonitorServiceNeeds"), (k!"OBD-PID-SERVICE-NEEDS", k!"readBswServiceDependencyServiceNeeds_ObdPidServiceNeeds"), (k!"OBD-CONTROL-SERVICE-NEEDS", k!"readBswServiceDependencyServiceNeeds_ObdControlServiceNeeds"), (k!"OBD-RATIO-SERVICE-NEEDS", k!"readBswServiceDependencyServiceNeeds_ObdRatioServiceNeeds"), (k!"OBD-RATIO-DENOMINATOR-NEEDS", k!"readBswServiceDependencyServiceNeeds_ObdRatioDenominatorNeeds"), (k!"DO-IP-ROUTING-ACTIVATION-AUTHENTICATION-NEEDS", k!"readBswServiceDependencyServiceNeeds_DoIpRoutingActivationAuthenticationNeeds"), (k!"DO-IP-ROUTING-ACTIVATION-CONFIRMATION-NEEDS", k!"readBswServiceDependencyServiceNeeds_DoIpRoutingActivationConfirmationNeeds"), (k!"SECURE-ON-BOARD-COMMUNICATION-NEEDS", k!"readBswServiceDependencyServiceNeeds_SecureOnBoardCommunicationNeeds"), (k!"IDS-MGR-NEEDS", k!"readBswServiceDependencyServiceNeeds_IdsMgrNeeds")]), elems := true, named := true, one := true },
   /- 1953 -/ { field := 0, path := (.all k!"SERVICE-NEEDS" (.all 0 .nil)), item := (.guard [k!"NV-BLOCK-NEEDS", k!"DIAGNOSTIC-COMMUNICATION-MANAGER-NEEDS", k!"DIAGNOSTIC-ROUTINE-NEEDS", k!"DIAGNOSTIC-VALUE-NEEDS", k!"DIAGNOSTIC-EVENT-NEEDS", k!"DIAGNOSTIC-EVENT-INFO-NEEDS", k!"DIAGNOSTIC-IO-CONTROL-NEEDS", k!"CRYPTO-SERVICE-NEEDS", k!"ECU-STATE-MGR-USER-NEEDS", k!"DTC-STATUS-CHANGE-NOTIFICATION-NEEDS", k!"DLT-USER-NEEDS", k!"COM-MGR-USER-NEEDS", k!"ERROR-TRACER-NEEDS", k!"DIAGNOSTIC-ENABLE-CONDITION-NEEDS", k!"DIAGNOSTIC-OPERATION-CYCLE-NEEDS", k!"DIAGNOSTIC-STORAGE-CONDITION-NEEDS", k!"INDICATOR-STATUS-NEEDS", k!"FUNCTION-INHIBITION-AVAILABILITY-NEEDS", k!"OBD-INFO-SERVICE-NEEDS", k!"OBD-MONITOR-SERVICE-NEEDS", k!"OBD-PID-SERVICE-NEEDS", k!"OBD-CONTROL-SERVICE-NEEDS", k!"OBD-RATIO-SERVICE-NEEDS", k!"OBD-RATIO-DENOMINATOR-NEEDS", k!"DO-IP-ROUTING-ACTIVATION-AUTHENTICATION-NEEDS", k!"DO-IP-ROUTING-ACTIVATION-CONFIRMATION-NEEDS", k!"SECURE-ON-BOARD-COMMUNICATION-NEEDS", k!"IDS-MGR-NEEDS"] .unsupported) }]

/-- `readSwcServiceDependency`, `parser/arxml_parser.py:1960-1968` (the `SwcServiceDependency` it makes) -/
def readSwcServiceDependency_SwcServiceDependency : List RSlot :=
  [/- 1962 -/ { field := k!"short_name", path := (.first [k!"SHORT-NAME"] .nil), item := .name, req := .always }] ++
  /- 1964 -/ readServiceDependency_SwcServiceDependency ++
  /- 1965 -/ readSwcServiceDependencyAssignedData ++
  /- 1966 -/ readSwcServiceDependencyAssignedPorts ++
  /- 1967 -/ readSwcServiceDependencyServiceNeeds ++
  /- 1968 -/ readSwcServiceDependencyRepresentedPortGroup

/-- `readSwcToEcuMapping`, `parser/arxml_parser.py:8770-8775` -/
def readSwcToEcuMapping : List RSlot :=
  /- 8772 -/ readIdentifiable ++
  [/- 8774 -/ { field := k!"componentIRefs", path := (.all k!"COMPONENT-IREFS" (.all k!"COMPONENT-IREF" .nil)), item := (.objs [(k!"COMPONENT-IREF", k!"getComponentInSystemInstanceRef_ComponentInSystemInstanceRef")]) },
   /- 8775 -/ { field := k!"ecuInstanceRef", path := (.first [k!"ECU-INSTANCE-REF"] .nil), item := (.prim .ref) }]

/-- `readSwcToImplMapping`, `parser/arxml_parser.py:8800-8804` -/
def readSwcToImplMapping : List RSlot :=
  /- 8801 -/ readIdentifiable ++
  [/- 8802 -/ { field := k!"componentImplementationRef", path := (.first [k!"COMPONENT-IMPLEMENTATION-REF"] .nil), item := (.prim .ref) },
   /- 8804 -/ { field := k!"componentIRefs", path := (.all k!"COMPONENT-IREFS" (.all k!"COMPONENT-IREF" .nil)), item := (.objs [(k!"COMPONENT-IREF", k!"getComponentInSystemInstanceRef_ComponentInSystemInstanceRef")]) }]

/-- `readSymbolicNameProps`, `parser/arxml_parser.py:1422-1428` (the `SymbolicNameProps` it makes) -/
def readSymbolicNameProps_SymbolicNameProps : List RSlot :=
  [/- 1426 -/ { field := k!"short_name", path := (.first [k!"SHORT-NAME"] .nil), item := .name, req := .always }] ++
  /- 1427 -/ readImplementationProps

/-- `readSystemMappingDataMappings`, `parser/arxml_parser.py:8756-8768` -/
def readSystemMappingDataMappings : List RSlot :=
  [/- 8762 -/ { field := k!"dataMappings", path := (.all k!"DATA-MAPPINGS" (.all 0 .nil)), item := (.objs [(k!"SENDER-RECEIVER-TO-SIGNAL-MAPPING", k!"readSystemMappingDataMappings_SenderReceiverToSignalMapping"), (k!"SENDER-RECEIVER-TO-SIGNAL-GROUP-MAPPING", k!"readSystemMappingDataMappings_SenderReceiverToSignalGroupMapping")]) },
   /- 8768 -/ { field := 0, path := (.all k!"DATA-MAPPINGS" (.all 0 .nil)), item := (.guard [k!"SENDER-RECEIVER-TO-SIGNAL-MAPPING", k!"SENDER-RECEIVER-TO-SIGNAL-GROUP-MAPPING"] .unsupported) }]

/-- `readSystemMappingEcuResourceMappings`, `parser/arxml_parser.py:8791-8798` -/
def readSystemMappingEcuResourceMappings : List RSlot :=
  [/- 8795 -/ { field := k!"ecuResourceMappings", path := (.all k!"ECU-RESOURCE-MAPPINGS" (.all k!"ECU-MAPPING" .nil)), item := (.objs [(k!"ECU-MAPPING", k!"readSystemMappingEcuResourceMappings_ECUMapping")]), elems := true, named := true, fresh := true },
   /- 8798 -/ { field := 0, path := (.all k!"ECU-RESOURCE-MAPPINGS" (.all 0 .nil)), item := (.guard [k!"ECU-MAPPING"] .unsupported) }]

/-- `readSystemMappingSwImplMappings`, `parser/arxml_parser.py:8806-8813` -/
def readSystemMappingSwImplMappings : List RSlot :=
  [/- 8810 -/ { field := k!"swImplMappings", path := (.all k!"SW-IMPL-MAPPINGS" (.all k!"SWC-TO-IMPL-MAPPING" .nil)), item := (.objs [(k!"SWC-TO-IMPL-MAPPING", k!"readSystemMappingSwImplMappings_SwcToImplMapping")]), elems := true, named := true, fresh := true },
   /- 8813 -/ { field := 0, path := (.all k!"SW-IMPL-MAPPINGS" (.all 0 .nil)), item := (.guard [k!"SWC-TO-IMPL-MAPPING"] .unsupported) }]

/-- `readSystemMappingSwMappings`, `parser/arxml_parser.py:8777-8784` -/
def readSystemMappingSwMappings : List RSlot :=
  [/- 8781 -/ { field := k!"swMappings", path := (.all k!"SW-MAPPINGS" (.all k!"SWC-TO-ECU-MAPPING" .nil)), item := (.objs [(k!"SWC-TO-ECU-MAPPING", k!"readSystemMappingSwMappings_SwcToEcuMapping")]), elems := true, named := true, fresh := true },
   /- 8784 -/ { field := 0, path := (.all k!"SW-MAPPINGS" (.all 0 .nil)), item := (.guard [k!"SWC-TO-ECU-MAPPING"] .unsupported) }]

/-- `readSystemMapping`, `parser/arxml_parser.py:8815-8821` -/
def readSystemMapping : List RSlot :=
  /- 8817 -/ readIdentifiable ++
  /- 8818 -/ readSystemMappingDataMappings ++
  /- 8819 -/ readSystemMappingEcuResourceMappings ++
  /- 8820 -/ readSystemMappingSwImplMappings ++
  /- 8821 -/ readSystemMappingSwMappings

/-- `readSystemMappingDataMappings`, `parser/arxml_parser.py:8756-8768` (the `SenderReceiverToSignalGroupMapping` it makes) -/
def readSystemMappingDataMappings_SenderReceiverToSignalGroupMapping : List RSlot :=
  /- 8765 -/ readSenderReceiverToSignalGroupMapping

/-- `readSystemMappingDataMappings`, `parser/arxml_parser.py:8756-8768` (the `SenderReceiverToSignalMapping` it makes) -/
def readSystemMappingDataMappings_SenderReceiverToSignalMapping : List RSlot :=
  /- 8761 -/ readSenderReceiverToSignalMapping

/-- `readSystemMappingEcuResourceMappings`, `parser/arxml_parser.py:8791-8798` (the `ECUMapping` it makes) -/
def readSystemMappingEcuResourceMappings_ECUMapping : List RSlot :=
  [/- 8795 -/ { field := k!"short_name", path := (.first [k!"SHORT-NAME"] .nil), item := .name, req := .always }] ++
  /- 8796 -/ readEcuMapping

/-- `readSystemMappingSwImplMappings`, `parser/arxml_parser.py:8806-8813` (the `SwcToImplMapping` it makes) -/
def readSystemMappingSwImplMappings_SwcToImplMapping : List RSlot :=
  [/- 8810 -/ { field := k!"short_name", path := (.first [k!"SHORT-NAME"] .nil), item := .name, req := .always }] ++
  /- 8811 -/ readSwcToImplMapping

/-- `readSystemMappingSwMappings`, `parser/arxml_parser.py:8777-8784` (the `SwcToEcuMapping` it makes) -/
def readSystemMappingSwMappings_SwcToEcuMapping : List RSlot :=
  [/- 8781 -/ { field := k!"short_name", path := (.first [k!"SHORT-NAME"] .nil), item := .name, req := .always }] ++
  /- 8782 -/ readSwcToEcuMapping

/-- `readSystemMappings`, `parser/arxml_parser.py:8823-8830` (the `SystemMapping` it makes) -/
def readSystemMappings_SystemMapping : List RSlot :=
  [/- 8827 -/ { field := k!"short_name", path := (.first [k!"SHORT-NAME"] .nil), item := .name, req := .always }] ++
  /- 8828 -/ readSystemMapping

/-- `readTopic1`, `parser/arxml_parser.py:4720-4729` (the `Topic1` it makes) -/
def readTopic1_Topic1 : List RSlot :=
  [/- 4721 -/ { field := k!"short_name", path := (.first [k!"SHORT-NAME"] .nil), item := .name, req := .always }] ++
  /- 4722 -/ readIdentifiable ++
  [/- 4725 -/ { field := k!"helpEntry", path := .nil, item := (.attr k!"HELP-ENTRY" .lit) }] ++
  /- 4728 -/ part k!"topicContent" .nil readTopicContentOrMsrQuery_TopicContentOrMsrQuery

/-- `readTopicContent`, `parser/arxml_parser.py:4712-4718` (the `TopicContent` it makes) -/
def readTopicContent_TopicContent : List RSlot :=
  [/- 4714 -/ { field := k!"timestamp", path := .nil, item := (.attr k!"T" .raw) },
   /- 4714 -/ { field := k!"uuid", path := .nil, item := (.attr k!"UUID" .raw) },
   /- 4717 -/ { field := k!"blockLevelContent", path := (.first [k!"DOCUMENTATION-BLOCK"] .nil), item := (.objs [(k!"DOCUMENTATION-BLOCK", k!"getDocumentationBlock_DocumentationBlock")]) }]

/-- `readTpConnection`, `parser/arxml_parser.py:6987-6992` (the `TpConnectionIdent` it makes) -/
def readTpConnection_TpConnectionIdent : List RSlot :=
  [/- 6991 -/ { field := k!"short_name", path := (.first [k!"SHORT-NAME"] .nil), item := .name, req := .always }] ++
  /- 6992 -/ readReferrable

/-- `readTransformationComSpecPropss`, `parser/arxml_parser.py:4484-4496` (the `EndToEndTransformationComSpecProps` it makes) -/
def readTransformationComSpecPropss_EndToEndTransformationComSpecProps : List RSlot :=
  /- 4489 -/ readEndToEndTransformationComSpecProps

/-- `readTransformationISignalProps`, `parser/arxml_parser.py:8471-8480` (the `DataPrototypeTransformationProps` it makes) -/
def readTransformationISignalProps_DataPrototypeTransformationProps : List RSlot :=
  /- 8477 -/ readDataPrototypeTransformationProps

/-- `readTransformationTechnologyTransformationDescriptions`, `parser/arxml_parser.py:7249-7257` (the `EndToEndTransformationDescription` it makes) -/
def readTransformationTechnologyTransformationDescriptions_EndToEndTransformationDescription : List RSlot :=
  /- 7254 -/ readEndToEndTransformationDescription

/-- `readTransientFault`, `parser/arxml_parser.py:1838-1846` (the `PossibleErrorReaction` it makes) -/
def readTransientFault_PossibleErrorReaction : List RSlot :=
  [/- 1843 -/ { field := k!"short_name", path := (.first [k!"SHORT-NAME"] .nil), item := .name, req := .always }] ++
  /- 1844 -/ readPossibleErrorReaction

/-- `readTransmissionAcknowledgementRequest`, `parser/arxml_parser.py:4421-4428` (the `TransmissionAcknowledgementRequest` it makes) -/
def readTransmissionAcknowledgementRequest_TransmissionAcknowledgementRequest : List RSlot :=
  [/- 4425 -/ { field := k!"timestamp", path := .nil, item := (.attr k!"T" .raw) },
   /- 4425 -/ { field := k!"uuid", path := .nil, item := (.attr k!"UUID" .raw) },
   /- 4426 -/ { field := k!"timeout", path := (.first [k!"TIMEOUT"] .nil), item := (.prim .time) }]

/-- `readTt`, `parser/arxml_parser.py:1000-1008` (the `Tt` it makes) -/
def readTt_Tt : List RSlot :=
  [/- 1003 -/ { field := k!"value", path := .nil, item := (.prim .litText) },
   /- 1005 -/ { field := k!"type", path := .nil, item := (.attr k!"TYPE" .lit) },
   /- 1007 -/ { field := k!"texRender", path := .nil, item := (.attr k!"TEX-RENDER" .lit) }]

/-- `readVariationPointProxy`, `parser/arxml_parser.py:2001-2018` (the `FloatValueVariationPoint` it makes) -/
def readVariationPointProxy_FloatValueVariationPoint : List RSlot :=
  /- 2016 -/ readAttributeValueVariationPoint_FloatValueVariationPoint

/-- `readVariationPoint`, `parser/arxml_parser.py:829-851` (the `ConditionByFormula` it makes); also `readVariationPointProxy` -/
def readVariationPoint_ConditionByFormula : List RSlot :=
  /- 841 -/ readConditionByFormula

/-- `readVariationPointProxy`, `parser/arxml_parser.py:2001-2018` (the `LimitValueVariationPoint` it makes) -/
def readVariationPointProxy_LimitValueVariationPoint : List RSlot :=
  /- 2016 -/ readAttributeValueVariationPoint_LimitValueVariationPoint

/-- `readVariationPoint`, `parser/arxml_parser.py:829-851` (the `PostBuildVariantCondition` it makes); also `readVariationPointProxy` -/
def readVariationPoint_PostBuildVariantCondition : List RSlot :=
  /- 845 -/ readPostBuildVariantCondition

/-- `readVariationPoint`, `parser/arxml_parser.py:829-851` (the `BlueprintGenerator` it makes) -/
def readVariationPoint_BlueprintGenerator : List RSlot :=
  /- 838 -/ readBlueprintGenerator

end Verif.Gen.R
