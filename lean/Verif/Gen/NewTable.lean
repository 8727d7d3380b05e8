import Verif.Model.Key
/-! Generated by `tools/gen_new.py`: every call `C(...)` of a class of `/repo/src/armodel/models/**` in `/repo/src/armodel/**`
(parser, models and command line tools): the class and the number of arguments, with the lines.  Calls of the same class with the same
number of arguments in one file share a row. -/
namespace Verif.Gen
open Verif

/-- `cli/arxml_dump_cli.py` -/
def newRows00 : List (Key × Nat) := [
  (k!"AUTOSAR", 0) /- 187 -/]

/-- `cli/arxml_format_cli.py` -/
def newRows01 : List (Key × Nat) := [
  (k!"AUTOSAR", 0) /- 48 -/]

/-- `cli/connector2xlsx_cli.py` -/
def newRows02 : List (Key × Nat) := [
  (k!"AUTOSAR", 0) /- 57 -/]

/-- `cli/connector_update_cli.py` -/
def newRows03 : List (Key × Nat) := [
  (k!"AUTOSAR", 0) /- 55 -/]

/-- `cli/memory_section_cli.py` -/
def newRows04 : List (Key × Nat) := [
  (k!"AUTOSAR", 0) /- 52 -/]

/-- `cli/swc_list_cli.py` -/
def newRows05 : List (Key × Nat) := [
  (k!"AUTOSAR", 0) /- 52 -/]

/-- `cli/system_signal_cli.py` -/
def newRows06 : List (Key × Nat) := [
  (k!"AUTOSAR", 0) /- 51 -/]

/-- `cli/uuid_checker_cli.py` -/
def newRows07 : List (Key × Nat) := [
  (k!"AUTOSAR", 0) /- 53 -/]

/-- `models/M2/AUTOSARTemplates/AdaptivePlatform/PlatformModuleDeployment/CryptoDeployment/CryptoKeySlot.py` -/
def newRows08 : List (Key × Nat) := [
  (k!"CryptoKeySlotContent", 2) /- 127 -/]

/-- `models/M2/AUTOSARTemplates/AutosarTopLevelStructure/__init__.py` -/
def newRows09 : List (Key × Nat) := [
  (k!"UUIDMgr", 0) /- 165 -/,
  (k!"ARPackage", 2) /- 187 -/,
  (k!"AUTOSAR", 0) /- 371 -/]

/-- `models/M2/AUTOSARTemplates/BswModuleTemplate/BswBehavior/__init__.py` -/
def newRows10 : List (Key × Nat) := [
  (k!"BswAsynchronousServerCallPoint", 2) /- 540 -/,
  (k!"BswSynchronousServerCallPoint", 2) /- 558 -/,
  (k!"BswVariableAccess", 2) /- 585, 612 -/,
  (k!"BswInternalTriggeringPoint", 2) /- 2610 -/,
  (k!"BswCalledEntity", 2) /- 2921 -/,
  (k!"BswSchedulableEntity", 2) /- 2946 -/,
  (k!"BswInterruptEntity", 2) /- 2971 -/,
  (k!"BswModeSwitchEvent", 2) /- 3005 -/,
  (k!"BswTimingEvent", 2) /- 3030 -/,
  (k!"BswDataReceivedEvent", 2) /- 3055 -/,
  (k!"BswInternalTriggerOccurredEvent", 2) /- 3080 -/,
  (k!"BswExternalTriggerOccurredEvent", 2) /- 3105 -/,
  (k!"BswOperationInvokedEvent", 2) /- 3130 -/,
  (k!"BswBackgroundEvent", 2) /- 3155 -/,
  (k!"BswModeManagerErrorEvent", 2) /- 3180 -/,
  (k!"BswModeSwitchedAckEvent", 2) /- 3205 -/,
  (k!"BswAsynchronousServerCallReturnsEvent", 2) /- 3230 -/]

/-- `models/M2/AUTOSARTemplates/BswModuleTemplate/BswInterfaces.py` -/
def newRows11 : List (Key × Nat) := [
  (k!"SwServiceArg", 2) /- 294, 406 -/]

/-- `models/M2/AUTOSARTemplates/BswModuleTemplate/BswOverview/__init__.py` -/
def newRows12 : List (Key × Nat) := [
  (k!"BswModuleDependency", 2) /- 123 -/,
  (k!"BswInternalBehavior", 2) /- 253 -/,
  (k!"BswModuleClientServerEntry", 2) /- 296, 384 -/,
  (k!"VariableDataPrototype", 2) /- 318, 406 -/,
  (k!"ModeDeclarationGroupPrototype", 2) /- 340, 428 -/,
  (k!"Trigger", 2) /- 362, 450 -/]

/-- `models/M2/AUTOSARTemplates/CommonStructure/FlatMap.py` -/
def newRows13 : List (Key × Nat) := [
  (k!"FlatInstanceDescriptor", 2) /- 212 -/]

/-- `models/M2/AUTOSARTemplates/CommonStructure/Implementation.py` -/
def newRows14 : List (Key × Nat) := [
  (k!"Code", 2) /- 738 -/,
  (k!"Compiler", 2) /- 763 -/,
  (k!"DependencyOnArtifact", 2) /- 789, 912, 938 -/,
  (k!"Linker", 2) /- 839 -/,
  (k!"ResourceConsumption", 2) /- 966 -/]

/-- `models/M2/AUTOSARTemplates/CommonStructure/ImplementationDataTypes.py` -/
def newRows15 : List (Key × Nat) := [
  (k!"ImplementationDataTypeElement", 2) /- 112, 262 -/,
  (k!"SymbolProps", 2) /- 288 -/]

/-- `models/M2/AUTOSARTemplates/CommonStructure/InternalBehavior.py` -/
def newRows16 : List (Key × Nat) := [
  (k!"ExecutableEntityActivationReason", 2) /- 139 -/,
  (k!"ParameterDataPrototype", 2) /- 383 -/,
  (k!"ExclusiveArea", 2) /- 426 -/,
  (k!"ExclusiveAreaNestingOrder", 2) /- 452 -/,
  (k!"VariableDataPrototype", 2) /- 486 -/]

/-- `models/M2/AUTOSARTemplates/CommonStructure/MeasurementCalibrationSupport/RptSupport/__init__.py` -/
def newRows17 : List (Key × Nat) := [
  (k!"RptExecutableEntityEvent", 2) /- 695 -/,
  (k!"RptExecutableEntity", 2) /- 878 -/,
  (k!"RptExecutionContext", 2) /- 937 -/,
  (k!"RptComponent", 2) /- 964 -/,
  (k!"RptServicePoint", 2) /- 991 -/]

/-- `models/M2/AUTOSARTemplates/CommonStructure/MeasurementCalibrationSupport/__init__.py` -/
def newRows18 : List (Key × Nat) := [
  (k!"McDataInstance", 2) /- 1344, 1461, 1488 -/]

/-- `models/M2/AUTOSARTemplates/CommonStructure/ModeDeclaration.py` -/
def newRows19 : List (Key × Nat) := [
  (k!"ModeDeclaration", 2) /- 321 -/,
  (k!"ModeTransition", 2) /- 393 -/]

/-- `models/M2/AUTOSARTemplates/CommonStructure/ResourceConsumption/__init__.py` -/
def newRows20 : List (Key × Nat) := [
  (k!"AnalyzedExecutionTime", 2) /- 311 -/,
  (k!"MeasuredExecutionTime", 2) /- 327 -/,
  (k!"RoughEstimateOfExecutionTime", 2) /- 343 -/,
  (k!"SimulatedExecutionTime", 2) /- 359 -/,
  (k!"MeasuredHeapUsage", 2) /- 386 -/,
  (k!"RoughEstimateHeapUsage", 2) /- 402 -/,
  (k!"WorstCaseHeapUsage", 2) /- 418 -/,
  (k!"MemorySection", 2) /- 443 -/,
  (k!"SectionNamePrefix", 2) /- 480 -/,
  (k!"MeasuredStackUsage", 2) /- 505 -/,
  (k!"RoughEstimateStackUsage", 2) /- 521 -/,
  (k!"WorstCaseStackUsage", 2) /- 537 -/]

/-- `models/M2/AUTOSARTemplates/CommonStructure/ServiceNeeds.py` -/
def newRows21 : List (Key × Nat) := [
  (k!"DiagEventDebounceCounterBased", 2) /- 1786 -/,
  (k!"DiagEventDebounceMonitorInternal", 2) /- 1802 -/,
  (k!"DiagEventDebounceTimeBased", 2) /- 1818 -/,
  (k!"DevelopmentError", 2) /- 3092 -/,
  (k!"RuntimeError", 2) /- 3108 -/,
  (k!"TransientFault", 2) /- 3124 -/,
  (k!"PossibleErrorReaction", 2) /- 4495 -/]

/-- `models/M2/AUTOSARTemplates/CommonStructure/SignalServiceTranslation.py` -/
def newRows22 : List (Key × Nat) := [
  (k!"SignalServiceTranslationElementProps", 2) /- 164 -/,
  (k!"SignalServiceTranslationEventProps", 2) /- 324 -/,
  (k!"SignalServiceTranslationProps", 2) /- 359 -/]

/-- `models/M2/AUTOSARTemplates/CommonStructure/StandardizationTemplate/Keyword.py` -/
def newRows23 : List (Key × Nat) := [
  (k!"Keyword", 2) /- 135 -/]

/-- `models/M2/AUTOSARTemplates/CommonStructure/Timing/TimingConstraint/ExecutionOrderConstraint.py` -/
def newRows24 : List (Key × Nat) := [
  (k!"EOCExecutableEntityRef", 2) /- 101 -/]

/-- `models/M2/AUTOSARTemplates/CommonStructure/Timing/TimingConstraint/TimingExtensions.py` -/
def newRows25 : List (Key × Nat) := [
  (k!"ExecutionOrderConstraint", 2) /- 54 -/]

/-- `models/M2/AUTOSARTemplates/ECUCDescriptionTemplate.py` -/
def newRows26 : List (Key × Nat) := [
  (k!"EcucContainerValue", 2) /- 351, 392 -/]

/-- `models/M2/AUTOSARTemplates/ECUCParameterDefTemplate.py` -/
def newRows27 : List (Key × Nat) := [
  (k!"EcucQuery", 2) /- 72, 140, 827 -/,
  (k!"EcucEnumerationLiteralDef", 2) /- 1516 -/,
  (k!"EcucParamConfContainerDef", 2) /- 1590, 1872, 2413 -/,
  (k!"EcucBooleanParamDef", 2) /- 1658 -/,
  (k!"EcucStringParamDef", 2) /- 1675 -/,
  (k!"EcucIntegerParamDef", 2) /- 1692 -/,
  (k!"EcucFloatParamDef", 2) /- 1709 -/,
  (k!"EcucEnumerationParamDef", 2) /- 1726 -/,
  (k!"EcucFunctionNameDef", 2) /- 1742 -/,
  (k!"EcucMultilineStringParamDef", 2) /- 1758 -/,
  (k!"EcucSymbolicNameReferenceDef", 2) /- 1783 -/,
  (k!"EcucReferenceDef", 2) /- 1799 -/,
  (k!"EcucChoiceReferenceDef", 2) /- 1815 -/,
  (k!"EcucInstanceReferenceDef", 2) /- 1831 -/,
  (k!"EcucChoiceContainerDef", 2) /- 1856, 2423 -/,
  (k!"EcucDestinationUriDef", 2) /- 2042 -/]

/-- `models/M2/AUTOSARTemplates/EcuResourceTemplate/HwElementCategory.py` -/
def newRows28 : List (Key × Nat) := [
  (k!"HwAttributeLiteralDef", 2) /- 89 -/,
  (k!"HwAttributeDef", 2) /- 165 -/]

/-- `models/M2/AUTOSARTemplates/EcuResourceTemplate/__init__.py` -/
def newRows29 : List (Key × Nat) := [
  (k!"HwPin", 2) /- 235 -/,
  (k!"HwPinGroup", 2) /- 603 -/]

/-- `models/M2/AUTOSARTemplates/GenericStructure/GeneralTemplateClasses/ARPackage.py` -/
def newRows30 : List (Key × Nat) := [
  (k!"CategoryString", 0) /- 656 -/,
  (k!"ARPackage", 2) /- 728 -/,
  (k!"EcuAbstractionSwComponentType", 2) /- 751 -/,
  (k!"ApplicationSwComponentType", 2) /- 771 -/,
  (k!"ComplexDeviceDriverSwComponentType", 2) /- 777 -/,
  (k!"ServiceSwComponentType", 2) /- 783 -/,
  (k!"SensorActuatorSwComponentType", 2) /- 789 -/,
  (k!"NvBlockSwComponentType", 2) /- 795 -/,
  (k!"ServiceProxySwComponentType", 2) /- 801 -/,
  (k!"CompositionSwComponentType", 2) /- 807 -/,
  (k!"SenderReceiverInterface", 2) /- 827 -/,
  (k!"ParameterInterface", 2) /- 833 -/,
  (k!"NvDataInterface", 2) /- 839 -/,
  (k!"GenericEthernetFrame", 2) /- 845 -/,
  (k!"LifeCycleInfoSet", 2) /- 851 -/,
  (k!"Documentation", 2) /- 857 -/,
  (k!"ClientServerInterface", 2) /- 863 -/,
  (k!"ApplicationPrimitiveDataType", 2) /- 869 -/,
  (k!"ApplicationRecordDataType", 2) /- 875 -/,
  (k!"ImplementationDataType", 2) /- 895 -/,
  (k!"SwBaseType", 2) /- 901 -/,
  (k!"DataTypeMappingSet", 2) /- 907 -/,
  (k!"CompuMethod", 2) /- 913 -/,
  (k!"BswModuleDescription", 2) /- 933 -/,
  (k!"BswModuleEntry", 2) /- 939 -/,
  (k!"BswImplementation", 2) /- 945 -/,
  (k!"SwcImplementation", 2) /- 951 -/,
  (k!"SwcBswMapping", 2) /- 957 -/,
  (k!"McFunction", 2) /- 973 -/,
  (k!"McGroup", 2) /- 989 -/,
  (k!"ConstantSpecification", 2) /- 995 -/,
  (k!"DataConstr", 2) /- 1001 -/,
  (k!"Unit", 2) /- 1007 -/,
  (k!"EndToEndProtectionSet", 2) /- 1013 -/,
  (k!"ApplicationArrayDataType", 2) /- 1019 -/,
  (k!"SwRecordLayout", 2) /- 1025 -/,
  (k!"SwAddrMethod", 2) /- 1031 -/,
  (k!"TriggerInterface", 2) /- 1037 -/,
  (k!"DataPrototypeGroup", 2) /- 1043 -/,
  (k!"RunnableEntityGroup", 2) /- 1049 -/,
  (k!"ConsistencyNeeds", 2) /- 1055 -/,
  (k!"ModeDeclarationGroup", 2) /- 1061 -/,
  (k!"ModeSwitchInterface", 2) /- 1067 -/,
  (k!"SwcTiming", 2) /- 1073 -/,
  (k!"LinCluster", 2) /- 1079 -/,
  (k!"CanCluster", 2) /- 1085 -/,
  (k!"LinUnconditionalFrame", 2) /- 1091 -/,
  (k!"NmPdu", 2) /- 1097 -/,
  (k!"NPdu", 2) /- 1103 -/,
  (k!"DcmIPdu", 2) /- 1109 -/,
  (k!"SecuredIPdu", 2) /- 1115 -/,
  (k!"NmConfig", 2) /- 1121 -/,
  (k!"CanTpConfig", 2) /- 1127 -/,
  (k!"LinTpConfig", 2) /- 1133 -/,
  (k!"CanFrame", 2) /- 1152 -/,
  (k!"EcuInstance", 2) /- 1172 -/,
  (k!"Gateway", 2) /- 1178 -/,
  (k!"ISignal", 2) /- 1184 -/,
  (k!"SystemSignal", 2) /- 1204 -/,
  (k!"SystemSignalGroup", 2) /- 1210 -/,
  (k!"SignalServiceTranslationPropsSet", 2) /- 1216 -/,
  (k!"ISignalIPdu", 2) /- 1222 -/,
  (k!"EcucValueCollection", 2) /- 1228 -/,
  (k!"EcucModuleConfigurationValues", 2) /- 1234 -/,
  (k!"EcucModuleDef", 2) /- 1240 -/,
  (k!"EcucDefinitionCollection", 2) /- 1246 -/,
  (k!"EcucDestinationUriDefSet", 2) /- 1252 -/,
  (k!"SwSystemconst", 2) /- 1258 -/,
  (k!"SwSystemconstantValueSet", 2) /- 1264 -/,
  (k!"PredefinedVariant", 2) /- 1270 -/,
  (k!"PostBuildVariantCriterion", 2) /- 1276 -/,
  (k!"PhysicalDimension", 2) /- 1282 -/,
  (k!"ISignalGroup", 2) /- 1288 -/,
  (k!"ISignalIPduGroup", 2) /- 1294 -/,
  (k!"System", 2) /- 1300 -/,
  (k!"FlatMap", 2) /- 1306 -/,
  (k!"PortInterfaceMappingSet", 2) /- 1312 -/,
  (k!"EthernetCluster", 2) /- 1318 -/,
  (k!"DiagnosticConnection", 2) /- 1324 -/,
  (k!"DiagnosticServiceTable", 2) /- 1344 -/,
  (k!"MultiplexedIPdu", 2) /- 1350 -/,
  (k!"UserDefinedIPdu", 2) /- 1356 -/,
  (k!"UserDefinedPdu", 2) /- 1362 -/,
  (k!"GeneralPurposeIPdu", 2) /- 1368 -/,
  (k!"GeneralPurposePdu", 2) /- 1374 -/,
  (k!"SecureCommunicationPropsSet", 2) /- 1380 -/,
  (k!"SoAdRoutingGroup", 2) /- 1386 -/,
  (k!"DoIpTpConfig", 2) /- 1392 -/,
  (k!"HwElement", 2) /- 1398 -/,
  (k!"HwCategory", 2) /- 1404 -/,
  (k!"HwType", 2) /- 1410 -/,
  (k!"FlexrayFrame", 2) /- 1416 -/,
  (k!"FlexrayCluster", 2) /- 1422 -/,
  (k!"DataTransformationSet", 2) /- 1428 -/,
  (k!"E2EProfileCompatibilityProps", 2) /- 1434 -/,
  (k!"Collection", 2) /- 1440 -/,
  (k!"KeywordSet", 2) /- 1446 -/,
  (k!"PortPrototypeBlueprint", 2) /- 1452 -/,
  (k!"ModeDeclarationMappingSet", 2) /- 1458 -/]

/-- `models/M2/AUTOSARTemplates/GenericStructure/GeneralTemplateClasses/Identifiable.py` -/
def newRows31 : List (Key × Nat) := [
  (k!"CategoryString", 0) /- 572 -/]

/-- `models/M2/AUTOSARTemplates/SWComponentTemplate/Components/__init__.py` -/
def newRows32 : List (Key × Nat) := [
  (k!"SwcInternalBehavior", 2) /- 554 -/,
  (k!"SymbolProps", 2) /- 581 -/,
  (k!"BulkNvDataDescriptor", 2) /- 739 -/,
  (k!"NvBlockDescriptor", 2) /- 769 -/]

/-- `models/M2/AUTOSARTemplates/SWComponentTemplate/Composition/__init__.py` -/
def newRows33 : List (Key × Nat) := [
  (k!"SwComponentPrototype", 2) /- 398 -/,
  (k!"AssemblySwConnector", 2) /- 424 -/,
  (k!"DelegationSwConnector", 2) /- 441 -/,
  (k!"PassThroughSwConnector", 2) /- 458 -/]

/-- `models/M2/AUTOSARTemplates/SWComponentTemplate/Datatype/Datatypes.py` -/
def newRows34 : List (Key × Nat) := [
  (k!"ApplicationArrayElement", 2) /- 187 -/,
  (k!"ApplicationRecordElement", 2) /- 211 -/]

/-- `models/M2/AUTOSARTemplates/SWComponentTemplate/EndToEndProtection.py` -/
def newRows35 : List (Key × Nat) := [
  (k!"EndToEndProtection", 2) /- 524 -/]

/-- `models/M2/AUTOSARTemplates/SWComponentTemplate/ImplicitCommunicationBehavior/__init__.py` -/
def newRows36 : List (Key × Nat) := [
  (k!"DataPrototypeGroup", 2) /- 252, 284 -/,
  (k!"RunnableEntityGroup", 2) /- 316, 348 -/]

/-- `models/M2/AUTOSARTemplates/SWComponentTemplate/PortInterface/__init__.py` -/
def newRows37 : List (Key × Nat) := [
  (k!"VariableDataPrototype", 2) /- 175, 327 -/,
  (k!"ParameterDataPrototype", 2) /- 199 -/,
  (k!"InvalidationPolicy", 0) /- 338 -/,
  (k!"ArgumentDataPrototype", 2) /- 574 -/,
  (k!"ClientServerOperation", 2) /- 690 -/,
  (k!"ApplicationError", 2) /- 716 -/,
  (k!"ModeDeclarationGroupPrototype", 2) /- 774 -/,
  (k!"ModeDeclarationMapping", 2) /- 1289 -/,
  (k!"VariableAndParameterInterfaceMapping", 2) /- 1314 -/,
  (k!"ClientServerInterfaceMapping", 2) /- 1321 -/,
  (k!"ModeInterfaceMapping", 2) /- 1328 -/,
  (k!"TriggerInterfaceMapping", 2) /- 1335 -/]

/-- `models/M2/AUTOSARTemplates/SWComponentTemplate/SoftwareComponentDocumentation.py` -/
def newRows38 : List (Key × Nat) := [
  (k!"Chapter", 2) /- 87, 113, 138, 163, 188, 213, 238, 263 -/]

/-- `models/M2/AUTOSARTemplates/SWComponentTemplate/SwComponentType.py` -/
def newRows39 : List (Key × Nat) := [
  (k!"ConsistencyNeeds", 2) /- 95 -/,
  (k!"PPortPrototype", 2) /- 123 -/,
  (k!"RPortPrototype", 2) /- 142 -/,
  (k!"PRPortPrototype", 2) /- 161 -/,
  (k!"PortGroup", 2) /- 233 -/]

/-- `models/M2/AUTOSARTemplates/SWComponentTemplate/SwcInternalBehavior/ServiceMapping.py` -/
def newRows40 : List (Key × Nat) := [
  (k!"NvBlockNeeds", 2) /- 229 -/,
  (k!"DiagnosticCommunicationManagerNeeds", 2) /- 246 -/,
  (k!"DiagnosticRoutineNeeds", 2) /- 262 -/,
  (k!"DiagnosticValueNeeds", 2) /- 278 -/,
  (k!"DiagnosticEventNeeds", 2) /- 294 -/,
  (k!"DiagnosticEventInfoNeeds", 2) /- 310 -/,
  (k!"CryptoServiceNeeds", 2) /- 326 -/,
  (k!"EcuStateMgrUserNeeds", 2) /- 342 -/,
  (k!"DtcStatusChangeNotificationNeeds", 2) /- 359 -/,
  (k!"DiagnosticIoControlNeeds", 2) /- 375 -/,
  (k!"DiagnosticEnableConditionNeeds", 2) /- 391 -/,
  (k!"DiagnosticOperationCycleNeeds", 2) /- 407 -/,
  (k!"DiagnosticStorageConditionNeeds", 2) /- 423 -/,
  (k!"FunctionInhibitionAvailabilityNeeds", 2) /- 439 -/,
  (k!"IndicatorStatusNeeds", 2) /- 455 -/,
  (k!"DltUserNeeds", 2) /- 471 -/,
  (k!"ComMgrUserNeeds", 2) /- 487 -/,
  (k!"ErrorTracerNeeds", 2) /- 503 -/,
  (k!"ObdInfoServiceNeeds", 2) /- 519 -/,
  (k!"ObdMonitorServiceNeeds", 2) /- 535 -/,
  (k!"ObdPidServiceNeeds", 2) /- 551 -/,
  (k!"ObdControlServiceNeeds", 2) /- 567 -/,
  (k!"ObdRatioServiceNeeds", 2) /- 583 -/,
  (k!"ObdRatioDenominatorNeeds", 2) /- 599 -/,
  (k!"DoIpRoutingActivationAuthenticationNeeds", 2) /- 615 -/,
  (k!"DoIpRoutingActivationConfirmationNeeds", 2) /- 631 -/,
  (k!"SecureOnBoardCommunicationNeeds", 2) /- 647 -/,
  (k!"IdsMgrNeeds", 2) /- 663 -/]

/-- `models/M2/AUTOSARTemplates/SWComponentTemplate/SwcInternalBehavior/Trigger.py` -/
def newRows41 : List (Key × Nat) := [
  (k!"ExternalTriggeringPointIdent", 2) /- 108 -/]

/-- `models/M2/AUTOSARTemplates/SWComponentTemplate/SwcInternalBehavior/__init__.py` -/
def newRows42 : List (Key × Nat) := [
  (k!"VariableAccess", 2) /- 229 -/,
  (k!"ParameterAccess", 2) /- 471 -/,
  (k!"SynchronousServerCallPoint", 2) /- 487 -/,
  (k!"AsynchronousServerCallPoint", 2) /- 503 -/,
  (k!"AsynchronousServerCallResultPoint", 2) /- 519 -/,
  (k!"InternalTriggeringPoint", 2) /- 574 -/,
  (k!"ModeSwitchPoint", 2) /- 659 -/,
  (k!"WaitPoint", 2) /- 699 -/,
  (k!"VariableDataPrototype", 2) /- 916, 928, 954 -/,
  (k!"PerInstanceMemory", 2) /- 966 -/,
  (k!"ParameterDataPrototype", 2) /- 978, 990 -/,
  (k!"OperationInvokedEvent", 2) /- 1053 -/,
  (k!"TimingEvent", 2) /- 1060 -/,
  (k!"InitEvent", 2) /- 1067 -/,
  (k!"AsynchronousServerCallReturnsEvent", 2) /- 1074 -/,
  (k!"DataReceivedEvent", 2) /- 1081 -/,
  (k!"SwcModeSwitchEvent", 2) /- 1088 -/,
  (k!"InternalTriggerOccurredEvent", 2) /- 1095 -/,
  (k!"ModeSwitchedAckEvent", 2) /- 1102 -/,
  (k!"BackgroundEvent", 2) /- 1109 -/,
  (k!"DataSendCompletedEvent", 2) /- 1116 -/,
  (k!"SwcServiceDependency", 2) /- 1123 -/,
  (k!"RunnableEntity", 2) /- 1182 -/]

/-- `models/M2/AUTOSARTemplates/SystemTemplate/Fibex/Fibex4Ethernet/EthernetTopology.py` -/
def newRows43 : List (Key × Nat) := [
  (k!"MacMulticastGroup", 2) /- 90 -/,
  (k!"CouplingPortFifo", 2) /- 293 -/,
  (k!"CouplingPortScheduler", 2) /- 298 -/,
  (k!"EthernetPriorityRegeneration", 2) /- 303 -/,
  (k!"CouplingPort", 2) /- 650 -/]

/-- `models/M2/AUTOSARTemplates/SystemTemplate/Fibex/Fibex4Ethernet/ServiceInstances.py` -/
def newRows44 : List (Key × Nat) := [
  (k!"ConsumedEventGroup", 2) /- 499 -/,
  (k!"EventHandler", 2) /- 941 -/,
  (k!"ConsumedServiceInstance", 2) /- 1165 -/,
  (k!"ProvidedServiceInstance", 2) /- 1196 -/,
  (k!"ApplicationEndpoint", 2) /- 1287 -/,
  (k!"SocketConnectionBundle", 2) /- 1397 -/,
  (k!"SocketAddress", 2) /- 1409 -/]

/-- `models/M2/AUTOSARTemplates/SystemTemplate/Fibex/Fibex4Flexray/FlexrayTopology.py` -/
def newRows45 : List (Key × Nat) := [
  (k!"FlexrayFifoConfiguration", 0) /- 305 -/,
  (k!"FlexrayFifoRange", 0) /- 1313 -/]

/-- `models/M2/AUTOSARTemplates/SystemTemplate/Fibex/FibexCore/CoreCommunication.py` -/
def newRows46 : List (Key × Nat) := [
  (k!"PduToFrameMapping", 2) /- 125 -/,
  (k!"ISignalToIPduMapping", 2) /- 1003, 1180 -/,
  (k!"SecureCommunicationAuthenticationProps", 2) /- 2055 -/,
  (k!"SecureCommunicationFreshnessProps", 2) /- 2071 -/]

/-- `models/M2/AUTOSARTemplates/SystemTemplate/Fibex/FibexCore/CoreTopology.py` -/
def newRows47 : List (Key × Nat) := [
  (k!"CanFrameTriggering", 2) /- 154 -/,
  (k!"LinFrameTriggering", 2) /- 161 -/,
  (k!"FlexrayFrameTriggering", 2) /- 168 -/,
  (k!"ISignalTriggering", 2) /- 178 -/,
  (k!"PduTriggering", 2) /- 194 -/,
  (k!"LinScheduleTable", 2) /- 263 -/,
  (k!"NetworkEndpoint", 2) /- 323 -/,
  (k!"VlanConfig", 2) /- 340 -/,
  (k!"CanPhysicalChannel", 2) /- 474 -/,
  (k!"LinPhysicalChannel", 2) /- 484 -/,
  (k!"EthernetPhysicalChannel", 2) /- 494 -/,
  (k!"FlexrayPhysicalChannel", 2) /- 504 -/,
  (k!"FramePort", 2) /- 1042 -/,
  (k!"IPduPort", 2) /- 1049 -/,
  (k!"ISignalPort", 2) /- 1056 -/]

/-- `models/M2/AUTOSARTemplates/SystemTemplate/Fibex/FibexCore/EcuInstance.py` -/
def newRows48 : List (Key × Nat) := [
  (k!"CanCommunicationController", 2) /- 178 -/,
  (k!"EthernetCommunicationController", 2) /- 184 -/,
  (k!"LinMaster", 2) /- 190 -/,
  (k!"FlexrayCommunicationController", 2) /- 196 -/,
  (k!"CanCommunicationConnector", 2) /- 205 -/,
  (k!"EthernetCommunicationConnector", 2) /- 211 -/,
  (k!"LinCommunicationConnector", 2) /- 217 -/,
  (k!"FlexrayCommunicationConnector", 2) /- 223 -/]

/-- `models/M2/AUTOSARTemplates/SystemTemplate/NetworkManagement.py` -/
def newRows49 : List (Key × Nat) := [
  (k!"CanNmCluster", 2) /- 987 -/,
  (k!"UdpNmCluster", 2) /- 993 -/,
  (k!"NmEcu", 2) /- 1018 -/,
  (k!"CanNmNode", 2) /- 1096 -/,
  (k!"UdpNmNode", 2) /- 1103 -/,
  (k!"J1939NmNode", 2) /- 1110 -/]

/-- `models/M2/AUTOSARTemplates/SystemTemplate/Transformer/__init__.py` -/
def newRows50 : List (Key × Nat) := [
  (k!"DataTransformation", 2) /- 972 -/,
  (k!"TransformationTechnology", 2) /- 982 -/]

/-- `models/M2/AUTOSARTemplates/SystemTemplate/TransportProtocols.py` -/
def newRows51 : List (Key × Nat) := [
  (k!"TpConnectionIdent", 2) /- 154 -/,
  (k!"CanTpAddress", 2) /- 502 -/,
  (k!"CanTpChannel", 2) /- 512 -/,
  (k!"CanTpNode", 2) /- 538 -/,
  (k!"DoIpLogicAddress", 2) /- 654 -/,
  (k!"TpAddress", 2) /- 916 -/,
  (k!"LinTpNode", 2) /- 934 -/]

/-- `models/M2/AUTOSARTemplates/SystemTemplate/__init__.py` -/
def newRows52 : List (Key × Nat) := [
  (k!"ECUMapping", 2) /- 261 -/,
  (k!"SwcToImplMapping", 2) /- 362 -/,
  (k!"SwcToEcuMapping", 2) /- 375 -/,
  (k!"SystemMapping", 2) /- 602 -/,
  (k!"RootSwCompositionPrototype", 2) /- 625 -/]

/-- `models/M2/MSR/AsamHdo/BaseTypes.py` -/
def newRows53 : List (Key × Nat) := [
  (k!"BaseTypeDirectDefinition", 0) /- 171 -/]

/-- `models/M2/MSR/AsamHdo/SpecialData.py` -/
def newRows54 : List (Key × Nat) := [
  (k!"SdgCaption", 2) /- 331 -/]

/-- `parser/abstract_arxml_parser.py` -/
def newRows55 : List (Key × Nat) := [
  (k!"ARLiteral", 0) /- 96, 106, 116 -/,
  (k!"VerbatimString", 0) /- 129 -/,
  (k!"Identifier", 0) /- 141 -/,
  (k!"RevisionLabelString", 0) /- 158 -/,
  (k!"ARFloat", 0) /- 179, 188 -/,
  (k!"TimeValue", 0) /- 197 -/,
  (k!"Boolean", 0) /- 216 -/,
  (k!"ARNumerical", 0) /- 231, 264 -/,
  (k!"Integer", 0) /- 242 -/,
  (k!"PositiveInteger", 0) /- 253 -/,
  (k!"Limit", 0) /- 272 -/,
  (k!"IntervalTypeEnum", 0) /- 275 -/,
  (k!"RefType", 0) /- 283, 307 -/]

/-- `parser/arxml_parser.py` -/
def newRows56 : List (Key × Nat) := [
  (k!"RxIdentifierRange", 0) /- 730 -/,
  (k!"J1939NodeName", 0) /- 739 -/,
  (k!"Sd", 0) /- 753 -/,
  (k!"VerbatimStringPlain", 0) /- 758 -/,
  (k!"Sdf", 0) /- 763 -/,
  (k!"Numerical", 0) /- 768 -/,
  (k!"Sdg", 0) /- 785 -/,
  (k!"NameToken", 0) /- 756, 766, 788, 1005, 1677, 1685, 3786, 3804 -/,
  (k!"SdgContents", 0) /- 790 -/,
  (k!"VerbatimString", 0) /- 806 -/,
  (k!"BindingTimeEnum", 0) /- 818, 2029 -/,
  (k!"BlueprintGenerator", 0) /- 838 -/,
  (k!"ConditionByFormula", 0) /- 841, 2005 -/,
  (k!"Modification", 0) /- 869 -/,
  (k!"DocRevision", 0) /- 887 -/,
  (k!"AdminData", 0) /- 898 -/,
  (k!"ShortNameFragment", 0) /- 912 -/,
  (k!"Caption", 2) /- 928 -/,
  (k!"VariationPoint", 0) /- 948 -/,
  (k!"LLongName", 0) /- 955 -/,
  (k!"EmphasisText", 0) /- 975 -/,
  (k!"Superscript", 0) /- 961, 963, 981, 983, 995, 997 -/,
  (k!"IndexEntry", 0) /- 991 -/,
  (k!"Tt", 0) /- 1001 -/,
  (k!"MultilanguageLongName", 0) /- 1014 -/,
  (k!"LOverviewParagraph", 0) /- 1021, 3774 -/,
  (k!"MultiLanguageOverviewParagraph", 0) /- 1032 -/,
  (k!"VariableInAtomicSWCTypeInstanceRef", 0) /- 1040 -/,
  (k!"ComponentInSystemInstanceRef", 0) /- 1049 -/,
  (k!"AutosarVariableRef", 0) /- 1060 -/,
  (k!"NvBlockDataMapping", 0) /- 1070, 1091, 1121 -/,
  (k!"VariableDataPrototype", 2) /- 1087, 1131 -/,
  (k!"InstantiationDataDefProps", 0) /- 1108, 2104 -/,
  (k!"NvBlockNeeds", 2) /- 1126, 1464 -/,
  (k!"ParameterDataPrototype", 2) /- 1136 -/,
  (k!"SwCalibrationAccessEnum", 0) /- 1195 -/,
  (k!"BswModeSenderPolicy", 0) /- 1315 -/,
  (k!"BswModeSwitchAckRequest", 0) /- 1326 -/,
  (k!"RoleBasedDataAssignment", 0) /- 1380 -/,
  (k!"ModeSwitchEventTriggeredActivity", 0) /- 1388 -/,
  (k!"RoleBasedPortAssignment", 0) /- 1394 -/,
  (k!"RoleBasedDataTypeAssignment", 0) /- 1401 -/,
  (k!"BswServiceDependencyIdent", 2) /- 1419 -/,
  (k!"SymbolicNameProps", 2) /- 1426 -/,
  (k!"RoleBasedBswModuleEntryAssignment", 0) /- 1431 -/,
  (k!"BswMgrNeeds", 2) /- 1460 -/,
  (k!"DiagnosticCommunicationManagerNeeds", 2) /- 1468 -/,
  (k!"DiagnosticRoutineNeeds", 2) /- 1472 -/,
  (k!"DiagnosticValueNeeds", 2) /- 1476 -/,
  (k!"DiagnosticEventNeeds", 2) /- 1480 -/,
  (k!"DiagnosticEventInfoNeeds", 2) /- 1484 -/,
  (k!"DiagnosticIoControlNeeds", 2) /- 1488 -/,
  (k!"DiagnosticEnableConditionNeeds", 2) /- 1492 -/,
  (k!"DiagnosticOperationCycleNeeds", 2) /- 1496 -/,
  (k!"DiagnosticStorageConditionNeeds", 2) /- 1500 -/,
  (k!"IndicatorStatusNeeds", 2) /- 1504 -/,
  (k!"FunctionInhibitionAvailabilityNeeds", 2) /- 1508 -/,
  (k!"CryptoServiceNeeds", 2) /- 1512 -/,
  (k!"EcuStateMgrUserNeeds", 2) /- 1516 -/,
  (k!"DtcStatusChangeNotificationNeeds", 2) /- 1520 -/,
  (k!"DltUserNeeds", 2) /- 1524 -/,
  (k!"ComMgrUserNeeds", 2) /- 1528 -/,
  (k!"SupervisedEntityNeeds", 2) /- 1532 -/,
  (k!"ErrorTracerNeeds", 2) /- 1536 -/,
  (k!"ObdInfoServiceNeeds", 2) /- 1540 -/,
  (k!"ObdMonitorServiceNeeds", 2) /- 1544 -/,
  (k!"ObdPidServiceNeeds", 2) /- 1548 -/,
  (k!"ObdControlServiceNeeds", 2) /- 1552 -/,
  (k!"ObdRatioServiceNeeds", 2) /- 1556 -/,
  (k!"ObdRatioDenominatorNeeds", 2) /- 1560 -/,
  (k!"DoIpRoutingActivationAuthenticationNeeds", 2) /- 1564 -/,
  (k!"DoIpRoutingActivationConfirmationNeeds", 2) /- 1568 -/,
  (k!"SecureOnBoardCommunicationNeeds", 2) /- 1572 -/,
  (k!"IdsMgrNeeds", 2) /- 1576 -/,
  (k!"IncludedDataTypeSet", 0) /- 1981 -/,
  (k!"PostBuildVariantCondition", 0) /- 845, 2009 -/,
  (k!"PrimitiveIdentifier", 0) /- 2037 -/,
  (k!"IntervalTypeEnum", 0) /- 2045 -/,
  (k!"VariationPointProxy", 2) /- 2055 -/,
  (k!"SwcExclusiveAreaPolicy", 0) /- 2076 -/,
  (k!"IncludedModeDeclarationGroupSet", 0) /- 2068, 2123 -/,
  (k!"BswQueuedDataReceptionPolicy", 0) /- 2286 -/,
  (k!"BswServiceDependency", 0) /- 2308 -/,
  (k!"AutosarEngineeringObject", 0) /- 2489 -/,
  (k!"DependencyUsageEnum", 0) /- 2551 -/,
  (k!"HardwareConfiguration", 0) /- 2600, 2686, 2749 -/,
  (k!"MemorySectionLocation", 0) /- 2606 -/,
  (k!"SoftwareContext", 0) /- 2611, 2691, 2754 -/,
  (k!"MultidimensionalTime", 0) /- 2619, 2624, 2637, 2650, 2659, 4068 -/,
  (k!"AccessCountSet", 0) /- 2733 -/,
  (k!"AccessCount", 0) /- 2737 -/,
  (k!"McSupportData", 0) /- 2820 -/,
  (k!"McSwEmulationMethodSupport", 0) /- 2826 -/,
  (k!"RptSupportData", 0) /- 2839 -/,
  (k!"McParameterElementGroup", 0) /- 2848 -/,
  (k!"RteEventInEcuInstanceRef", 0) /- 2874 -/,
  (k!"VariableAccessInEcuInstanceRef", 0) /- 2878 -/,
  (k!"ImplementationElementInParameterInstanceRef", 0) /- 2888 -/,
  (k!"McDataAccessDetails", 0) /- 2895 -/,
  (k!"SwDataDefProps", 0) /- 2899, 3970 -/,
  (k!"RptSwPrototypingAccess", 0) /- 2902 -/,
  (k!"RptImplPolicy", 0) /- 2907, 2958, 2987 -/,
  (k!"RoleBasedMcDataAssignment", 0) /- 2911, 2947, 2971, 2975, 2982 -/,
  (k!"RptExecutableEntityProperties", 0) /- 2953 -/,
  (k!"RunnableEntityArgument", 0) /- 3068 -/,
  (k!"ParameterInAtomicSWCTypeInstanceRef", 0) /- 3076 -/,
  (k!"AutosarParameterRef", 0) /- 3088 -/,
  (k!"ROperationInAtomicSwcInstanceRef", 0) /- 3113 -/,
  (k!"RVariableInAtomicSwcInstanceRef", 0) /- 3122 -/,
  (k!"ExternalTriggeringPoint", 0) /- 3169 -/,
  (k!"InnerDataPrototypeGroupInCompositionInstanceRef", 0) /- 3221 -/,
  (k!"VariableDataPrototypeInCompositionInstanceRef", 0) /- 3227 -/,
  (k!"InnerRunnableEntityGroupInCompositionInstanceRef", 0) /- 3239 -/,
  (k!"RunnableEntityInCompositionInstanceRef", 0) /- 3245 -/,
  (k!"RModeGroupInAtomicSWCInstanceRef", 0) /- 3291 -/,
  (k!"ModeAccessPoint", 0) /- 3305 -/,
  (k!"PModeGroupInAtomicSwcInstanceRef", 0) /- 3288, 3314, 5228 -/,
  (k!"RModeInAtomicSwcInstanceRef", 0) /- 3129, 3385 -/,
  (k!"ModeInBswModuleDescriptionInstanceRef", 0) /- 3393 -/,
  (k!"POperationInAtomicSwcInstanceRef", 0) /- 3410 -/,
  (k!"PortDefinedArgumentValue", 0) /- 3456 -/,
  (k!"PortAPIOption", 0) /- 3465 -/,
  (k!"ModeActivationKind", 0) /- 3490 -/,
  (k!"SwPointerTargetProps", 0) /- 3561, 3570 -/,
  (k!"SwTextProps", 0) /- 3580 -/,
  (k!"LParagraph", 0) /- 3596, 3614 -/,
  (k!"MultiLanguageParagraph", 0) /- 3604 -/,
  (k!"ARList", 0) /- 3625 -/,
  (k!"Graphic", 0) /- 3637 -/,
  (k!"LGraphic", 0) /- 3644, 3836 -/,
  (k!"MlFigure", 0) /- 3663 -/,
  (k!"MultiLanguagePlainText", 0) /- 3672 -/,
  (k!"Note", 0) /- 3682 -/,
  (k!"NoteTypeEnum", 0) /- 3687 -/,
  (k!"TraceableText", 0) /- 3694 -/,
  (k!"RefType", 0) /- 3698, 3719 -/,
  (k!"StructuredReq", 0) /- 3705 -/,
  (k!"DefItem", 0) /- 3723 -/,
  (k!"DefList", 0) /- 3734 -/,
  (k!"IndentSample", 0) /- 3741 -/,
  (k!"ItemLabelPosEnum", 0) /- 3744 -/,
  (k!"LabeledItem", 0) /- 3750 -/,
  (k!"LabeledList", 0) /- 3762 -/,
  (k!"MultiLanguageVerbatim", 0) /- 3783 -/,
  (k!"FloatEnum", 0) /- 3788 -/,
  (k!"PgwideEnum", 0) /- 3792 -/,
  (k!"LVerbatim", 0) /- 3794 -/,
  (k!"MsrQueryArg", 0) /- 3800 -/,
  (k!"MsrQueryProps", 0) /- 3808 -/,
  (k!"MsrQueryP2", 0) /- 3820 -/,
  (k!"MlFormula", 0) /- 3832 -/,
  (k!"DocumentationBlock", 0) /- 3867, 3874 -/,
  (k!"Annotation", 0) /- 3889 -/,
  (k!"SwAxisIndividual", 0) /- 3897 -/,
  (k!"SwAxisGeneric", 0) /- 3912 -/,
  (k!"SwGenericAxisParam", 0) /- 3922 -/,
  (k!"SwAxisGrouped", 0) /- 3930 -/,
  (k!"SwCalprmAxis", 0) /- 3937 -/,
  (k!"SwCalprmAxisSet", 0) /- 3952 -/,
  (k!"SwBitRepresentation", 0) /- 4009 -/,
  (k!"SwVariableRefProxy", 0) /- 4031 -/,
  (k!"SwDataDependency", 0) /- 4039 -/,
  (k!"CompuGenericMath", 0) /- 4042 -/,
  (k!"SwDataDependencyArgs", 0) /- 4049 -/,
  (k!"SwCalprmRefProxy", 0) /- 4060 -/,
  (k!"ApplicationCompositeElementInPortInterfaceInstanceRef", 0) /- 4140 -/,
  (k!"CompositeNetworkRepresentation", 0) /- 4147 -/,
  (k!"VariableAccess", 2) /- 4168 -/,
  (k!"ReceptionComSpecProps", 0) /- 4179 -/,
  (k!"EndToEndTransformationComSpecProps", 0) /- 4196, 4488 -/,
  (k!"UserDefinedTransformationComSpecProps", 0) /- 4200, 4492 -/,
  (k!"SwValues", 0) /- 4210 -/,
  (k!"ValueList", 0) /- 4222 -/,
  (k!"SwValueCont", 0) /- 4232 -/,
  (k!"ClientComSpec", 0) /- 4260 -/,
  (k!"ParameterRequireComSpec", 0) /- 4268 -/,
  (k!"NvRequireComSpec", 0) /- 4275 -/,
  (k!"QueuedReceiverComSpec", 0) /- 4282 -/,
  (k!"ModeSwitchReceiverComSpec", 0) /- 4289 -/,
  (k!"NonqueuedReceiverComSpec", 0) /- 4297 -/,
  (k!"ClientServerAnnotation", 0) /- 4358 -/,
  (k!"DelegatedPortAnnotation", 0) /- 4363 -/,
  (k!"SignalFanEnum", 0) /- 4366 -/,
  (k!"IoHwAbstractionServerAnnotation", 0) /- 4369 -/,
  (k!"FilterDebouncingEnum", 0) /- 4372 -/,
  (k!"PulseTestEnum", 0) /- 4375 -/,
  (k!"ModePortAnnotation", 0) /- 4379 -/,
  (k!"NvDataPortAnnotation", 0) /- 4383 -/,
  (k!"ParameterPortAnnotation", 0) /- 4387 -/,
  (k!"SenderReceiverAnnotation", 0) /- 4391 -/,
  (k!"DataLimitKindEnum", 0) /- 4396 -/,
  (k!"ProcessingKindEnum", 0) /- 4399 -/,
  (k!"TriggerPortAnnotation", 0) /- 4402 -/,
  (k!"TransmissionAcknowledgementRequest", 0) /- 4424 -/,
  (k!"TransmissionComSpecProps", 0) /- 4433 -/,
  (k!"NonqueuedSenderComSpec", 0) /- 4453 -/,
  (k!"ServerComSpec", 0) /- 4502 -/,
  (k!"ParameterProvideComSpec", 0) /- 4510 -/,
  (k!"QueuedSenderComSpec", 0) /- 4517 -/,
  (k!"ModeSwitchedAckRequest", 0) /- 4525 -/,
  (k!"ModeSwitchSenderComSpec", 0) /- 4530 -/,
  (k!"NvProvideComSpec", 0) /- 4537 -/,
  (k!"InnerPortGroupInCompositionInstanceRef", 0) /- 4564 -/,
  (k!"SwComponentDocumentation", 0) /- 4602 -/,
  (k!"Chapter", 2) /- 4629 -/,
  (k!"ChapterModel", 0) /- 4643 -/,
  (k!"TopicOrMsrQuery", 0) /- 4650 -/,
  (k!"ChapterOrMsrQuery", 0) /- 4659 -/,
  (k!"PredefinedChapter", 0) /- 4668 -/,
  (k!"DocumentationContext", 2) /- 4675 -/,
  (k!"ChapterContent", 0) /- 4691 -/,
  (k!"TopicContentOrMsrQuery", 0) /- 4702 -/,
  (k!"MsrQueryP1", 0) /- 4710 -/,
  (k!"TopicContent", 0) /- 4713 -/,
  (k!"Topic1", 2) /- 4721 -/,
  (k!"MsrQueryTopic1", 0) /- 4732 -/,
  (k!"MsrQueryChapter", 0) /- 4740 -/,
  (k!"PPortInCompositionInstanceRef", 0) /- 4840, 4895 -/,
  (k!"RPortInCompositionInstanceRef", 0) /- 4848, 4888 -/,
  (k!"InstanceEventInCompositionInstanceRef", 0) /- 4947 -/,
  (k!"InstantiationTimingEventProps", 0) /- 4961 -/,
  (k!"DataTypeMap", 0) /- 4979 -/,
  (k!"ModeRequestTypeMap", 0) /- 4990 -/,
  (k!"InvalidationPolicy", 0) /- 5015 -/,
  (k!"CompuConstFormulaContent", 0) /- 5125 -/,
  (k!"CompuConstNumericContent", 0) /- 5128 -/,
  (k!"CompuConst", 0) /- 5141, 5151 -/,
  (k!"CompuScaleConstantContents", 0) /- 5150 -/,
  (k!"CompuConstTextContent", 0) /- 5131, 5152 -/,
  (k!"ARLiteral", 0) /- 4045, 5153 -/,
  (k!"CompuScaleRationalFormula", 0) /- 5166 -/,
  (k!"CompuRationalCoeffs", 0) /- 5167 -/,
  (k!"CompuNominatorDenominator", 0) /- 5168, 5169 -/,
  (k!"CompuScales", 0) /- 5192 -/,
  (k!"CompuScale", 0) /- 5194 -/,
  (k!"Compu", 0) /- 5203 -/,
  (k!"SwcBswRunnableMapping", 0) /- 5218 -/,
  (k!"SwcBswSynchronizedModeGroupPrototype", 0) /- 5224 -/,
  (k!"SwcBswSynchronizedTrigger", 0) /- 5234 -/,
  (k!"PTriggerInAtomicSwcTypeInstanceRef", 0) /- 3175, 5238 -/,
  (k!"ApplicationValueSpecification", 0) /- 5266 -/,
  (k!"NumericalOrText", 0) /- 5274 -/,
  (k!"RuleArguments", 0) /- 5281 -/,
  (k!"RuleBasedValueSpecification", 0) /- 5294 -/,
  (k!"RuleBasedAxisCont", 0) /- 5303 -/,
  (k!"RuleBasedValueCont", 0) /- 5316 -/,
  (k!"ApplicationRuleBasedValueSpecification", 0) /- 5324 -/,
  (k!"CompositeRuleBasedValueSpecification", 0) /- 5333 -/,
  (k!"NumericalValueSpecification", 0) /- 5344 -/,
  (k!"TextValueSpecification", 0) /- 5352 -/,
  (k!"ArrayValueSpecification", 0) /- 5360 -/,
  (k!"ConstantReference", 0) /- 5369 -/,
  (k!"RecordValueSpecification", 0) /- 5400 -/,
  (k!"InternalConstrs", 0) /- 5414 -/,
  (k!"ScaleConstr", 0) /- 5426 -/,
  (k!"ScaleConstrValidityEnum", 0) /- 5434 -/,
  (k!"PhysConstrs", 0) /- 5440 -/,
  (k!"DataConstrRule", 0) /- 5455 -/,
  (k!"EndToEndDescription", 0) /- 5485 -/,
  (k!"VariableDataPrototypeInSystemInstanceRef", 0) /- 5499 -/,
  (k!"EndToEndProtectionVariablePrototype", 0) /- 5520 -/,
  (k!"EndToEndProtectionISignalIPdu", 0) /- 5535 -/,
  (k!"SwRecordLayoutV", 0) /- 5612 -/,
  (k!"SwRecordLayoutGroupContent", 0) /- 5621 -/,
  (k!"SwRecordLayoutGroup", 0) /- 5630 -/,
  (k!"MemoryAllocationKeywordPolicyType", 0) /- 5652 -/,
  (k!"SectionInitializationPolicyType", 0) /- 5657 -/,
  (k!"MemorySectionType", 0) /- 5660 -/,
  (k!"ModeErrorBehavior", 0) /- 5674 -/,
  (k!"ModeErrorReactionPolicyEnum", 0) /- 5679 -/,
  (k!"CycleRepetition", 0) /- 5788 -/,
  (k!"FlexrayAbsolutelyScheduledTiming", 0) /- 5803 -/,
  (k!"ApplicationEntry", 0) /- 5889 -/,
  (k!"Ipv6Configuration", 0) /- 5924 -/,
  (k!"DoIpEntity", 0) /- 5946 -/,
  (k!"InfrastructureServices", 0) /- 5954 -/,
  (k!"SocketConnectionIpduIdentifier", 0) /- 5972 -/,
  (k!"SocketConnection", 0) /- 5993 -/,
  (k!"TpPort", 0) /- 6031 -/,
  (k!"UdpTp", 0) /- 6057 -/,
  (k!"TcpTp", 0) /- 6060 -/,
  (k!"GenericTp", 0) /- 6063 -/,
  (k!"RequestResponseDelay", 0) /- 6077 -/,
  (k!"SdClientConfig", 0) /- 6086 -/,
  (k!"InitialSdDelayConfig", 0) /- 6129 -/,
  (k!"SdServerConfig", 0) /- 6140 -/,
  (k!"SoAdConfig", 0) /- 6234 -/,
  (k!"CanClusterBusOffRecovery", 0) /- 6283 -/,
  (k!"SegmentPosition", 0) /- 6407 -/,
  (k!"DynamicPartAlternative", 0) /- 6425 -/,
  (k!"DynamicPart", 0) /- 6439 -/,
  (k!"StaticPart", 0) /- 6453 -/,
  (k!"DoIpTpConnection", 0) /- 6552 -/,
  (k!"HwAttributeValue", 0) /- 6574 -/,
  (k!"HwPinConnector", 0) /- 6607 -/,
  (k!"HwPinGroupConnector", 0) /- 6614 -/,
  (k!"HwElementConnector", 0) /- 6633 -/,
  (k!"ContainedIPduProps", 0) /- 6733 -/,
  (k!"SecureCommunicationProps", 0) /- 6760 -/,
  (k!"CanNmClusterCoupling", 0) /- 6833 -/,
  (k!"UdpNmClusterCoupling", 0) /- 6841 -/,
  (k!"UdpNmEcu", 0) /- 6919 -/,
  (k!"CanTpConnection", 0) /- 7021 -/,
  (k!"CanTpEcu", 0) /- 7035 -/,
  (k!"LinTpConnection", 0) /- 7096 -/,
  (k!"BufferProperties", 0) /- 7208 -/,
  (k!"EndToEndTransformationDescription", 0) /- 7253 -/,
  (k!"EcucMultiplicityConfigurationClass", 0) /- 7383 -/,
  (k!"String", 0) /- 977, 979, 993, 1003, 1007, 2033, 2035, 3727, 3753, 3790, 4637, 4725, 7400 -/,
  (k!"EcucDestinationUriDefRefType", 0) /- 7409 -/,
  (k!"EcucDestinationUriPolicy", 0) /- 7435 -/,
  (k!"EcucDestinationUriNestingContractEnum", 0) /- 7444 -/,
  (k!"EcucParamConfContainerDef", 2) /- 7454 -/,
  (k!"EcucChoiceContainerDef", 2) /- 7458 -/,
  (k!"EcucBooleanParamDef", 2) /- 7468 -/,
  (k!"EcucStringParamDef", 2) /- 7472 -/,
  (k!"EcucIntegerParamDef", 2) /- 7476 -/,
  (k!"EcucFloatParamDef", 2) /- 7480 -/,
  (k!"EcucEnumerationParamDef", 2) /- 7484 -/,
  (k!"EcucFunctionNameDef", 2) /- 7488 -/,
  (k!"EcucMultilineStringParamDef", 2) /- 7492 -/,
  (k!"EcucSymbolicNameReferenceDef", 2) /- 7502 -/,
  (k!"EcucReferenceDef", 2) /- 7506 -/,
  (k!"EcucChoiceReferenceDef", 2) /- 7510 -/,
  (k!"EcucInstanceReferenceDef", 2) /- 7514 -/,
  (k!"EcucValueConfigurationClass", 0) /- 7528 -/,
  (k!"EcucDerivationSpecification", 0) /- 7556 -/,
  (k!"EcucParameterDerivationFormula", 0) /- 7567 -/,
  (k!"EcucConditionFormula", 0) /- 7573 -/,
  (k!"EcucConditionSpecification", 0) /- 7582 -/,
  (k!"EcucValidationCondition", 2) /- 7593 -/,
  (k!"EcucQueryExpression", 0) /- 7612 -/,
  (k!"SwSystemconstValue", 0) /- 7833 -/,
  (k!"CanControllerFdConfiguration", 0) /- 7884 -/,
  (k!"FlexrayFifoRange", 0) /- 7898 -/,
  (k!"FlexrayFifoConfiguration", 0) /- 7907 -/,
  (k!"CanControllerFdConfigurationRequirements", 0) /- 7925 -/,
  (k!"CanControllerXlConfiguration", 0) /- 7941 -/,
  (k!"CanControllerXlConfigurationRequirements", 0) /- 7958 -/,
  (k!"CanControllerConfigurationRequirements", 0) /- 7996 -/,
  (k!"CouplingPortDetails", 0) /- 8052 -/,
  (k!"VlanMembership", 0) /- 8066 -/,
  (k!"ISignalMapping", 0) /- 8263 -/,
  (k!"TargetIPduRef", 0) /- 8273 -/,
  (k!"IPduMapping", 0) /- 8280 -/,
  (k!"ISignalProps", 0) /- 8312 -/,
  (k!"EndToEndTransformationISignalProps", 0) /- 8320, 8534 -/,
  (k!"EcucTextualParamValue", 0) /- 8346 -/,
  (k!"EcucNumericalParamValue", 0) /- 8352 -/,
  (k!"EcucReferenceValue", 0) /- 8374 -/,
  (k!"AnyInstanceRef", 0) /- 8383 -/,
  (k!"EcucInstanceReferenceValue", 0) /- 8391 -/,
  (k!"DataPrototypeTransformationProps", 0) /- 8476 -/,
  (k!"DataPrototypeInClientServerInterfaceInstanceRef", 0) /- 8487 -/,
  (k!"DataPrototypeInPortInterfaceRef", 0) /- 8511 -/,
  (k!"DataFilter", 0) /- 8614 -/,
  (k!"TransmissionModeCondition", 0) /- 8625 -/,
  (k!"TimeRangeType", 0) /- 8635 -/,
  (k!"CyclicTiming", 0) /- 8643 -/,
  (k!"EventControlledTiming", 0) /- 8652 -/,
  (k!"TransmissionModeTiming", 0) /- 8662 -/,
  (k!"TransmissionModeDeclaration", 0) /- 8671 -/,
  (k!"IPduTiming", 0) /- 8682 -/,
  (k!"SenderRecRecordElementMapping", 0) /- 8730 -/,
  (k!"SenderRecRecordTypeMapping", 0) /- 8745 -/,
  (k!"SenderReceiverToSignalMapping", 0) /- 8760 -/,
  (k!"SenderReceiverToSignalGroupMapping", 0) /- 8764 -/,
  (k!"LifeCyclePeriod", 0) /- 8872 -/,
  (k!"LifeCycleInfo", 0) /- 8892 -/,
  (k!"DataPrototypeMapping", 0) /- 8928 -/,
  (k!"SubElementMapping", 0) /- 8941 -/,
  (k!"TextTableMapping", 0) /- 8957 -/,
  (k!"ClientServerOperationMapping", 0) /- 8978 -/,
  (k!"ModeDeclarationGroupPrototypeMapping", 0) /- 8992 -/,
  (k!"McFunctionDataRefSet", 0) /- 9324, 9329, 9334, 9339, 9344 -/,
  (k!"McGroupDataRefSet", 0) /- 9365, 9370 -/,
  (k!"ReferenceBase", 0) /- 9387 -/]

/-- `parser/connector_xlsx_parser.py` -/
def newRows57 : List (Key × Nat) := [
  (k!"PPortInCompositionInstanceRef", 0) /- 128, 147 -/,
  (k!"RefType", 0) /- 129, 130, 137, 138, 148, 149, 150, 159, 160, 161 -/,
  (k!"RPortInCompositionInstanceRef", 0) /- 136, 158 -/]

/-- all of them -/
def newTable : List (Key × Nat) :=
  newRows00 ++ newRows01 ++ newRows02 ++ newRows03 ++ newRows04 ++ newRows05 ++ newRows06 ++ newRows07 ++ newRows08 ++ newRows09 ++ newRows10 ++ newRows11 ++ newRows12 ++ newRows13 ++ newRows14 ++ newRows15 ++ newRows16 ++ newRows17 ++ newRows18 ++ newRows19 ++ newRows20 ++ newRows21 ++ newRows22 ++ newRows23 ++ newRows24 ++ newRows25 ++ newRows26 ++ newRows27 ++ newRows28 ++ newRows29 ++ newRows30 ++ newRows31 ++ newRows32 ++ newRows33 ++ newRows34 ++ newRows35 ++ newRows36 ++ newRows37 ++ newRows38 ++ newRows39 ++ newRows40 ++ newRows41 ++ newRows42 ++ newRows43 ++ newRows44 ++ newRows45 ++ newRows46 ++ newRows47 ++ newRows48 ++ newRows49 ++ newRows50 ++ newRows51 ++ newRows52 ++ newRows53 ++ newRows54 ++ newRows55 ++ newRows56 ++ newRows57

end Verif.Gen
