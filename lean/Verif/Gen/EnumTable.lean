import Verif.Model.Enum
/-! Generated by `tools/gen_enum.py` from `/repo/src/armodel/models/**`: every class derived from `AREnum`, with its constants and the
values it passes to the constructor of `AREnum`. Each row cites its source file and line. -/
namespace Verif.Gen
open Verif Verif.Model

/-- `src/armodel/models/M2/AUTOSARTemplates/BswModuleTemplate/BswBehavior/__init__.py` -/
def enumRows00 : List EnumRow := [
  ⟨k!"BswInterruptCategory", [(k!"CAT1", "cat1"), (k!"CAT2", "cat2")], some ["cat1", "cat2"], 754⟩]

/-- `src/armodel/models/M2/AUTOSARTemplates/BswModuleTemplate/BswInterfaces.py` -/
def enumRows01 : List EnumRow := [
  ⟨k!"BswEntryKindEnum", [(k!"ABSTRACT", "abstract"), (k!"CONCRETE", "concrete")], some ["abstract", "concrete"], 17⟩,
  ⟨k!"BswCallType", [(k!"CALLBACK", "callback"), (k!"CALLOUT", "callout"), (k!"INTERRUPT", "interrupt"), (k!"REGULAR", "regular"), (k!"SCHEDULED", "scheduled")], some ["callback", "callout", "interrupt", "regular", "scheduled"], 39⟩,
  ⟨k!"BswExecutionContext", [(k!"HOOK", "hook"), (k!"INTERRUPT_CAT_1", "interruptCat1"), (k!"INTERRUPT_CAT_2", "interruptCat2"), (k!"TASK", "task"), (k!"UNSPECIFIED", "unspecified")], some ["hook", "interruptCat1", "interruptCat2", "task", "unspecified"], 70⟩,
  ⟨k!"SwServiceImplPolicyEnum", [(k!"INLINE", "inline"), (k!"INLINE_CONDITIONAL", "inlineConditional"), (k!"MACRO", "macro"), (k!"STANDARD", "standard")], some ["inline", "inlineConditional", "macro", "standard"], 101⟩,
  ⟨k!"BswEntryRelationshipEnum", [(k!"DERIVED_FROM", "derivedFrom")], none, 565⟩]

/-- `src/armodel/models/M2/AUTOSARTemplates/CommonStructure/Filter.py` -/
def enumRows02 : List EnumRow := [
  ⟨k!"DataFilterTypeEnum", [(k!"MASKED_NEW_DIFFERS_MASKED_OLD", "maskedNewDiffersMaskedOld"), (k!"MASKED_NEW_DIFFERS_X", "maskedNewDiffersX"), (k!"MASKED_NEW_EQUALS_X", "maskedNewEqualsX"), (k!"NEVER", "never"), (k!"NEW_IS_OUTSIDE", "newIsOutside"), (k!"NEW_IS_WITHIN", "newIsWithin"), (k!"ONE_EVERY_N", "oneEveryN")], some ["maskedNewDiffersMaskedOld", "maskedNewDiffersX", "maskedNewEqualsX", "never", "newIsOutside", "newIsWithin", "oneEveryN"], 11⟩]

/-- `src/armodel/models/M2/AUTOSARTemplates/CommonStructure/Implementation.py` -/
def enumRows03 : List EnumRow := [
  ⟨k!"DependencyUsageEnum", [(k!"BUILD", "build"), (k!"CODEGENERATION", "codegeneration"), (k!"COMPILE", "compile"), (k!"EXECUTE", "execute"), (k!"LINK", "link")], some ["build", "codegeneration", "compile", "execute", "link"], 21⟩,
  ⟨k!"ProgramminglanguageEnum", [(k!"C", "c"), (k!"CPP", "cpp"), (k!"JAVA", "java")], some ["c", "cpp", "java"], 57⟩]

/-- `src/armodel/models/M2/AUTOSARTemplates/CommonStructure/ImplementationDataTypes.py` -/
def enumRows04 : List EnumRow := [
  ⟨k!"ArrayImplPolicyEnum", [(k!"DYNAMIC", "dynamic"), (k!"STATIC", "static")], some ["dynamic", "static"], 326⟩,
  ⟨k!"ArraySizeSemanticsEnum", [(k!"FIXED_SIZE", "fixedSize"), (k!"VARIABLE_SIZE", "variableSize")], some ["fixedSize", "variableSize"], 346⟩]

/-- `src/armodel/models/M2/AUTOSARTemplates/CommonStructure/InternalBehavior.py` -/
def enumRows05 : List EnumRow := [
  ⟨k!"ReentrancyLevelEnum", [(k!"MULTICORE_REENTRANT", "multicoreReentrant"), (k!"NON_REENTRANT", "nonReentrant"), (k!"SINGLE_CORE_REENTRANT", "singleCoreReentrant")], some ["multicoreReentrant", "nonReentrant", "singleCoreReentrant"], 17⟩,
  ⟨k!"ApiPrincipleEnum", [(k!"COMMON", "common"), (k!"PER_EXECUTABLE", "perExecutable")], some ["common", "perExecutable"], 527⟩]

/-- `src/armodel/models/M2/AUTOSARTemplates/CommonStructure/MeasurementCalibrationSupport/RptSupport/__init__.py` -/
def enumRows06 : List EnumRow := [
  ⟨k!"RptAccessEnum", [(k!"ENABLED", "enabled"), (k!"NONE", "none"), (k!"PROTECTED", "protected")], some ["enabled", "none", "protected"], 18⟩,
  ⟨k!"RptEnablerImplTypeEnum", [(k!"NONE", "none"), (k!"RPT_ENABLER_RAM", "rptEnablerRam"), (k!"RPT_ENABLER_ROM", "rptEnablerRom"), (k!"RPT_ENABLER_RAM_AND_ROM", "rptEnablerRamAndRom")], some ["none", "rptEnablerRam", "rptEnablerRom", "rptEnablerRamAndRom"], 47⟩,
  ⟨k!"RptExecutionControlEnum", [(k!"CONDITIONAL", "conditional"), (k!"NONE", "none")], some ["conditional", "none"], 80⟩,
  ⟨k!"RptPreparationEnum", [(k!"NONE", "none"), (k!"RPT_LEVEL_1", "rptLevel1"), (k!"RPT_LEVEL_2", "rptLevel2"), (k!"RPT_LEVEL_3", "rptLevel3")], some ["none", "rptLevel1", "rptLevel2", "rptLevel3"], 105⟩]

/-- `src/armodel/models/M2/AUTOSARTemplates/CommonStructure/ModeDeclaration.py` -/
def enumRows07 : List EnumRow := [
  ⟨k!"ModeActivationKind", [(k!"ON_ENTRY", "onEntry"), (k!"ON_EXIT", "onExit"), (k!"ON_TRANSITION", "onTransition")], some ["onEntry", "onExit", "onTransition"], 15⟩,
  ⟨k!"ModeErrorReactionPolicyEnum", [(k!"DEFAULT_MODE", "defaultMode"), (k!"LAST_MODE", "lastMode")], some ["defaultMode", "lastMode"], 683⟩]

/-- `src/armodel/models/M2/AUTOSARTemplates/CommonStructure/ServiceNeeds.py` -/
def enumRows08 : List EnumRow := [
  ⟨k!"RamBlockStatusControlEnum", [(k!"API", "api"), (k!"NV_RAM_MANAGER", "nvRamManager")], some ["api", "nvRamManager"], 171⟩,
  ⟨k!"NvBlockNeedsReliabilityEnum", [(k!"ERROR_CORRECTION", "errorCorrection"), (k!"ERROR_DETECTION", "errorDetection"), (k!"NO_PROTECTION", "noProtection")], some ["errorCorrection", "errorDetection", "noProtection"], 197⟩,
  ⟨k!"NvBlockNeedsWritingPriorityEnum", [(k!"HIGH", "high"), (k!"LOW", "low"), (k!"MEDIUM", "medium")], some ["high", "low", "medium"], 226⟩,
  ⟨k!"ServiceDiagnosticRelevanceEnum", [], some [], 590⟩,
  ⟨k!"DiagnosticAudienceEnum", [(k!"AFTER_MARKET", "aftermarket"), (k!"AFTER_SALES", "afterSales"), (k!"DEVELOPMENT", "development"), (k!"MANUFACTURING", "manufacturing"), (k!"SUPPLIER", "supplier")], some ["aftermarket", "afterSales", "development", "manufacturing", "supplier"], 712⟩,
  ⟨k!"DiagnosticServiceRequestCallbackTypeEnum", [(k!"REQUEST_CALLBACK_TYPE_MANUFACTURER", "requestCallbackTypeManufacturer"), (k!"REQUEST_CALLBACK_TYPE_SUPPLIER", "requestCallbackTypeSupplier")], some ["requestCallbackTypeManufacturer", "requestCallbackTypeSupplier"], 747⟩,
  ⟨k!"DiagnosticRoutineTypeEnum", [(k!"ASYNCHRONOUS", "asynchronous"), (k!"SYNCHRONOUS", "synchronous")], some ["asynchronous", "synchronous"], 878⟩,
  ⟨k!"DiagnosticValueAccessEnum", [(k!"READ_ONLY", "readOnly"), (k!"READ_WRITE", "readWrite"), (k!"WRITE_ONLY", "writeOnly")], some ["readOnly", "readWrite", "writeOnly"], 1027⟩,
  ⟨k!"DiagnosticProcessingStyleEnum", [(k!"PROCESSING_STYLE_ASYNCHRONOUS", "processingStyleAsynchronous"), (k!"PROCESSING_STYLE_ASYNCHRONOUS_WITH_ERROR", "processingStyleAsynchronousWithError"), (k!"PROCESSING_STYLE_SYNCHRONOUS", "processingStyleSynchronous")], some ["processingStyleAsynchronous", "processingStyleAsynchronousWithError", "processingStyleSynchronous"], 1056⟩,
  ⟨k!"DtcKindEnum", [], some [], 1459⟩,
  ⟨k!"DiagnosticClearDtcNotificationEnum", [], some [], 1580⟩,
  ⟨k!"DtcFormatTypeEnum", [], some [], 1596⟩,
  ⟨k!"DiagnosticDenominatorConditionEnum", [(k!"_500MILES", "_500miles"), (k!"COLDSTART", "coldstart"), (k!"CSERS", "csers"), (k!"EVAP", "evap"), (k!"EVAPPURGEFLOW", "evappurgeflow"), (k!"INDIVIDUAL", "individual"), (k!"OBD", "obd")], some ["_500miles", "coldstart", "csers", "evap", "evappurgeflow", "individual", "obd"], 2314⟩,
  ⟨k!"DiagnosticMonitorUpdateKindEnum", [(k!"ALWAYS", "always"), (k!"STEADY", "steady")], some ["always", "steady"], 2559⟩,
  ⟨k!"EventAcceptanceStatusEnum", [(k!"EVENT_ACCEPTANCE_DISABLED", "eventAcceptanceDisabled"), (k!"EVENT_ACCEPTANCE_ENABLED", "eventAcceptanceEnabled")], some ["eventAcceptanceDisabled", "eventAcceptanceEnabled"], 3130⟩,
  ⟨k!"DiagnosticIndicatorTypeEnum", [(k!"AMBER_WARNING", "amberWarning"), (k!"MALFUNCTION", "malfunction"), (k!"PROTECT_LAMP", "protectLamp"), (k!"RED_STOP_LAMP", "redStopLamp"), (k!"WARNING", "warning")], some ["amberWarning", "malfunction", "protectLamp", "redStopLamp", "warning"], 3345⟩,
  ⟨k!"MaxCommModeEnum", [(k!"FULL", "full"), (k!"NONE", "none"), (k!"SILENT", "silent")], some ["full", "none", "silent"], 3495⟩,
  ⟨k!"ObdRatioConnectionKindEnum", [(k!"API_USE", "apiUse"), (k!"OBSERVER", "observer")], some ["apiUse", "observer"], 3727⟩,
  ⟨k!"OperationCycleTypeEnum", [(k!"IGNITION", "ignition"), (k!"OBD_DCY", "obdDcy"), (k!"OTHER", "other"), (k!"POWER", "power"), (k!"TIME", "time"), (k!"WARMUP", "warmup")], some ["ignition", "obdDcy", "other", "power", "time", "warmup"], 3895⟩,
  ⟨k!"ServiceProviderEnum", [(k!"ANY_STANDARDIZED", "anyStandardized"), (k!"BASIC_SOFTWARE_MODE_MANAGER", "basicSoftwareModeManager"), (k!"COM_MANAGER", "comManager"), (k!"CRYPTO_KEY_MANAGEMENT", "cryptoKeyManagement"), (k!"CRYPTO_SERVICE_MANAGER", "cryptoServiceManager"), (k!"DEFAULT_ERROR_TRACER", "defaultErrorTracer"), (k!"DIAGNOSTIC_COMMUNICATION_MANAGER", "diagnosticCommunicationManager"), (k!"DIAGNOSTIC_EVENT_MANAGER", "diagnosticEventManager"), (k!"DIAGNOSTIC_LOG_AND_TRACE", "diagnosticLogAndTrace"), (k!"ECU_MANAGER", "ecuManager"), (k!"ERROR_TRACER", "errorTracer"), (k!"FUNCTION_INHIBITION_MANAGER", "functionInhibitionManager"), (k!"HARDWARE_TEST_MANAGER", "hardwareTestManager"), (k!"INTRUSION_DETECTION_SECURITY_MANAGEMENT", "intrusionDetectionSecurityManagement"), (k!"J1939_DCM", "j1939Dcm"), (k!"J1939_REQUEST_MANAGER", "j1939RequestManager"), (k!"NON_VOLATILE_RAM_MANAGER", "nonVolatileRamManager"), (k!"OPERATING_SYSTEM", "operatingSystem"), (k!"SECURE_ON_BOARD_COMMUNICATION", "secureOnBoardCommunication"), (k!"SYNC_BASE_TIME_MANAGER", "syncBaseTimeManager"), (k!"V2X_FACILITIES", "v2xFacilities"), (k!"V2X_MANAGEMENT", "v2xManagement"), (k!"VENDOR_SPECIFIC", "vendorSpecific")], some ["anyStandardized", "basicSoftwareModeManager", "comManager", "cryptoKeyManagement", "cryptoServiceManager", "defaultErrorTracer", "diagnosticCommunicationManager", "diagnosticEventManager", "diagnosticLogAndTrace", "ecuManager", "errorTracer", "functionInhibitionManager", "hardwareTestManager", "intrusionDetectionSecurityManagement", "j1939Dcm", "j1939RequestManager", "nonVolatileRamManager", "operatingSystem", "secureOnBoardCommunication", "syncBaseTimeManager", "v2xFacilities", "v2xManagement", "vendorSpecific"], 3989⟩,
  ⟨k!"StorageConditionStatusEnum", [(k!"EVENT_STORAGE_DISABLE", "eventStorageDisabled"), (k!"EVENT_STORAGE_ENABLE", "eventStorageEnabled")], some ["eventStorageDisabled", "eventStorageEnabled"], 4102⟩,
  ⟨k!"VerificationStatusIndicationModeEnum", [(k!"FAILURE_AND_SUCCESS", "failureAndSuccess"), (k!"FAILURE_ONLY", "failureOnly")], some ["failureAndSuccess", "failureOnly"], 4590⟩]

/-- `src/armodel/models/M2/AUTOSARTemplates/CommonStructure/SignalServiceTranslation.py` -/
def enumRows09 : List EnumRow := [
  ⟨k!"SignalServiceTranslationControlEnum", [(k!"ALL_PARTIAL_NETWORKS_ACTIVE", "allPartialNetworksActive"), (k!"ANY_PARTIAL_NETWORK_ACTIVE", "anyPartialNetworkActive"), (k!"PARTIAL_NETWORK", "partialNetwork"), (k!"SERVICE_DISCOVERY", "serviceDiscovery"), (k!"TRANSLATION_START", "translationStart")], some ["allPartialNetworksActive", "anyPartialNetworkActive", "partialNetwork", "serviceDiscovery", "translationStart"], 22⟩]

/-- `src/armodel/models/M2/AUTOSARTemplates/CommonStructure/Timing/TimingConstraint/ExecutionTimeConstraint.py` -/
def enumRows10 : List EnumRow := [
  ⟨k!"ExecutionTimeTypeEnum", [(k!"BEST_CASE", "best-case"), (k!"WORST_CASE", "worst-case"), (k!"AVERAGE_CASE", "average-case")], some ["best-case", "worst-case", "average-case"], 19⟩]

/-- `src/armodel/models/M2/AUTOSARTemplates/CommonStructure/Timing/TimingConstraint/LatencyTimingConstraint.py` -/
def enumRows11 : List EnumRow := [
  ⟨k!"LatencyConstraintTypeEnum", [(k!"RESPONSE_TIME", "response-time"), (k!"REACTION_TIME", "reaction-time"), (k!"END_TO_END_LATENCY", "end-to-end-latency")], some ["response-time", "reaction-time", "end-to-end-latency"], 19⟩]

/-- `src/armodel/models/M2/AUTOSARTemplates/CommonStructure/Timing/TimingConstraint/SynchronizationTiming.py` -/
def enumRows12 : List EnumRow := [
  ⟨k!"SynchronizationTypeEnum", [(k!"HARD_SYNCHRONIZATION", "hard-synchronization"), (k!"SOFT_SYNCHRONIZATION", "soft-synchronization"), (k!"NO_SYNCHRONIZATION", "no-synchronization")], some ["hard-synchronization", "soft-synchronization", "no-synchronization"], 19⟩,
  ⟨k!"EventOccurrenceKindEnum", [(k!"START", "start"), (k!"END", "end"), (k!"START_AND_END", "start-and-end")], some ["start", "end", "start-and-end"], 41⟩]

/-- `src/armodel/models/M2/AUTOSARTemplates/ECUCDescriptionTemplate.py` -/
def enumRows13 : List EnumRow := [
  ⟨k!"EcucConfigurationVariantEnum", [], some [], 436⟩]

/-- `src/armodel/models/M2/AUTOSARTemplates/ECUCParameterDefTemplate.py` -/
def enumRows14 : List EnumRow := [
  ⟨k!"EcucScopeEnum", [(k!"ECU", "ECU"), (k!"LOCAL", "LOCAL")], some ["ECU", "LOCAL"], 169⟩,
  ⟨k!"EcucConfigurationClassEnum", [(k!"LINK", "LINK"), (k!"POST_BUILD", "POST-BUILD"), (k!"PRE_COMPILE", "PRE-COMPILE"), (k!"PUBLISHED_INFORMATION", "PUBLISHED-INFORMATION")], some ["LINK", "POST-BUILD", "PRE-COMPILE", "PUBLISHED-INFORMATION"], 365⟩,
  ⟨k!"EcucConfigurationVariantEnum", [(k!"RECOMMENDED_CONFIGURATION", "RECOMMENDED-CONFIGURATION"), (k!"VARIANT_LINK_TIME", "VARIANT-LINK-TIME"), (k!"VARIANT_POST_BUILD", "VARIANT-POST-BUILD"), (k!"VARIANT_PRE_COMPILE", "VARIANT-PRE-COMPILE")], some ["RECOMMENDED-CONFIGURATION", "VARIANT-LINK-TIME", "VARIANT-POST-BUILD", "VARIANT-PRE-COMPILE"], 397⟩,
  ⟨k!"EcucDestinationUriNestingContractEnum", [(k!"LEAF_OF_TARGET_CONTAINER", "LEAF-OF-TARGET-CONTAINER"), (k!"TARGET_CONTAINER", "TARGET-CONTAINER"), (k!"VERTEX_OF_TARGET_CONTAINER", "VERTEX-OF-TARGET-CONTAINER")], some ["LEAF-OF-TARGET-CONTAINER", "TARGET-CONTAINER", "VERTEX-OF-TARGET-CONTAINER"], 2150⟩]

/-- `src/armodel/models/M2/AUTOSARTemplates/GenericStructure/GeneralTemplateClasses/Enumerations.py` -/
def enumRows15 : List EnumRow := [
  ⟨k!"BindingTimeEnum", [], some ["codeGenerationTime", "linkTime", "preCompileTime", "systemDesignTime"], 26⟩,
  ⟨k!"XmlSpaceEnum", [(k!"DEFAULT", "default"), (k!"PRESERVE", "preserve")], some ["default", "preserve"], 44⟩]

/-- `src/armodel/models/M2/AUTOSARTemplates/GenericStructure/GeneralTemplateClasses/PrimitiveTypes.py` -/
def enumRows16 : List EnumRow := [
  ⟨k!"IntervalTypeEnum", [(k!"CLOSED", "closed"), (k!"OPEN", "open")], some ["closed", "open"], 911⟩,
  ⟨k!"ArgumentDirectionEnum", [(k!"IN", "in"), (k!"INOUT", "inout"), (k!"OUT", "out")], some ["in", "inout", "out"], 1146⟩,
  ⟨k!"ByteOrderEnum", [(k!"MOST_SIGNIFICANT_BYTE_FIRST", "mostSignificantByteFirst"), (k!"MOST_SIGNIFICANT_BYTE_LAST", "mostSignificantByteLast"), (k!"OPAQUE", "opaque")], some ["mostSignificantByteFirst", "mostSignificantByteLast", "opaque"], 1250⟩,
  ⟨k!"MonotonyEnum", [(k!"DECREASING", "decreasing"), (k!"INCREASING", "increasing"), (k!"MONOTONOUS", "monotonous"), (k!"NO_MONOTONY", "noMonotony"), (k!"STRICTLY_DECREASING", "strictlyDecreasing"), (k!"STRICTLY_INCREASING", "strictlyIncreasing"), (k!"STRICT_MONOTONOUS", "strictMonotonous")], some ["decreasing", "increasing", "monotonous", "noMonotony", "strictlyDecreasing", "strictlyIncreasing", "strictMonotonous"], 1279⟩]

/-- `src/armodel/models/M2/AUTOSARTemplates/SWComponentTemplate/ApplicationAttributes/__init__.py` -/
def enumRows17 : List EnumRow := [
  ⟨k!"DataLimitKindEnum", [(k!"MAX", "max"), (k!"MIN", "min"), (k!"NONE", "none")], some ["max", "min", "none"], 11⟩,
  ⟨k!"FilterDebouncingEnum", [(k!"DEBOUNCE_DATA", "debounceData"), (k!"RAW_DATA", "rawData"), (k!"WAIT_TIME_DATE", "waitTimeDate")], some ["debounceData", "rawData", "waitTimeDate"], 40⟩,
  ⟨k!"ProcessingKindEnum", [(k!"FILTERED", "filtered"), (k!"NONE", "none"), (k!"RAW", "raw")], some ["filtered", "none", "raw"], 69⟩,
  ⟨k!"PulseTestEnum", [(k!"DISABLE", "disable"), (k!"ENABLE", "enable")], some ["disable", "enable"], 98⟩,
  ⟨k!"SignalFanEnum", [(k!"NFOLD", "nfold"), (k!"SINGLE", "single")], some ["nfold", "single"], 123⟩]

/-- `src/armodel/models/M2/AUTOSARTemplates/SWComponentTemplate/Communication.py` -/
def enumRows18 : List EnumRow := [
  ⟨k!"HandleInvalidEnum", [(k!"DONT_INVALIDATE", "dontInvalidate"), (k!"EXTERNAL_REPLACEMENT", "externalReplacement"), (k!"KEEP", "keep"), (k!"REPLACE", "replace")], some ["dontInvalidate", "externalReplacement", "keep", "replace"], 24⟩,
  ⟨k!"TransmissionModeDefinitionEnum", [(k!"CYCLIC", "cyclic"), (k!"CYCLIC_AND_ON_CHANGE", "cyclicAndOnChange"), (k!"TRIGGERED", "triggered")], some ["cyclic", "cyclicAndOnChange", "triggered"], 238⟩,
  ⟨k!"HandleOutOfRangeEnum", [(k!"DEFAULT", "default"), (k!"EXTERNAL_REPLACEMENT", "externalReplacement"), (k!"IGNORE", "ignore"), (k!"INVALID", "invalid"), (k!"NONE", "none"), (k!"SATURATE", "saturate")], some ["default", "externalReplacement", "ignore", "invalid", "none", "saturate"], 1789⟩,
  ⟨k!"HandleOutOfRangeStatusEnum", [(k!"INDICATE", "indicate"), (k!"SILENT", "silent")], some ["indicate", "silent"], 1830⟩,
  ⟨k!"HandleTimeoutEnum", [(k!"NONE", "none"), (k!"REPLACE", "replace"), (k!"REPLACE_BY_TIMEOUT_SUBSTITUTION_VALUE", "replaceByTimeoutSubstitutionValue")], some ["none", "replace", "replaceByTimeoutSubstitutionValue"], 1857⟩]

/-- `src/armodel/models/M2/AUTOSARTemplates/SWComponentTemplate/Datatype/Datatypes.py` -/
def enumRows19 : List EnumRow := [
  ⟨k!"ArraySizeHandlingEnum", [(k!"ALL_INDICES_DIFFERENT_ARRAY_SIZE", "allIndicesDifferentArraySize"), (k!"ALL_INDICES_SAME_ARRAY_SIZE", "allIndicesSameArraySize"), (k!"INHERITED_FROM_ARRAY_ELEMENT_TYPE_SIZE", "inheritedFromArrayElementTypeSize")], some ["allIndicesDifferentArraySize", "allIndicesSameArraySize", "inheritedFromArrayElementTypeSize"], 89⟩]

/-- `src/armodel/models/M2/AUTOSARTemplates/SWComponentTemplate/PortInterface/__init__.py` -/
def enumRows20 : List EnumRow := [
  ⟨k!"ServerArgumentImplPolicyEnum", [(k!"USE_ARGUMENT_TYPE", "useArgumentType"), (k!"USE_VOID", "useVoid")], some ["useArgumentType", "useVoid"], 346⟩]

/-- `src/armodel/models/M2/AUTOSARTemplates/SWComponentTemplate/RPTScenario.py` -/
def enumRows21 : List EnumRow := [
  ⟨k!"RptServicePointEnum", [(k!"ENABLED", "enabled"), (k!"NONE", "none")], some ["enabled", "none"], 42⟩]

/-- `src/armodel/models/M2/AUTOSARTemplates/SWComponentTemplate/SwcInternalBehavior/AccessCount.py` -/
def enumRows22 : List EnumRow := [
  ⟨k!"RteApiReturnValueProvisionEnum", [(k!"NO_RETURN_VALUE_PROVIDED", "noReturnValueProvided"), (k!"RETURN_VALUE_PROVIDED", "returnValueProvided")], some ["noReturnValueProvided", "returnValueProvided"], 14⟩]

/-- `src/armodel/models/M2/AUTOSARTemplates/SystemTemplate/DataMapping.py` -/
def enumRows23 : List EnumRow := [
  ⟨k!"DataTypePolicyEnum", [(k!"DDS_SERVICE", "ddsService"), (k!"DDS_SIGNAL", "ddsSignal"), (k!"LEGACY", "legacy"), (k!"NETWORK_REPRESENTATION_FROM_COM_SPEC", "networkRepresentationFromComSpec"), (k!"OVERRIDE", "override"), (k!"TRANSFORMING_I_SIGNAL", "transformingISignal")], some ["ddsService", "ddsSignal", "legacy", "networkRepresentationFromComSpec", "override", "transformingISignal"], 423⟩]

/-- `src/armodel/models/M2/AUTOSARTemplates/SystemTemplate/Fibex/Fibex4Lin/LinCommunication.py` -/
def enumRows24 : List EnumRow := [
  ⟨k!"ResumePosition", [(k!"CONTINUE_AT_IT_POSITION", "continueAtItPosition"), (k!"START_FROM_BEGINNING", "startFromBeginning")], some ["continueAtItPosition", "startFromBeginning"], 79⟩]

/-- `src/armodel/models/M2/AUTOSARTemplates/SystemTemplate/Fibex/FibexCore/CoreCommunication.py` -/
def enumRows25 : List EnumRow := [
  ⟨k!"TransferPropertyEnum", [(k!"PENDING", "pending"), (k!"TRIGGERED", "triggered"), (k!"TRIGGERED_ON_CHANGE", "triggeredOnChange"), (k!"TRIGGERED_ON_CHANGE_WITHOUT_REPETITION", "triggeredOnChangeWithoutRepetition"), (k!"TRIGGERED_WITHOUT_REPETITION", "triggeredWithoutRepetition")], some ["pending", "triggered", "triggeredOnChange", "triggeredOnChangeWithoutRepetition", "triggeredWithoutRepetition"], 801⟩,
  ⟨k!"ISignalTypeEnum", [(k!"ARRAY", "array"), (k!"PRIMITIVE", "primitive")], some ["array", "primitive"], 1201⟩]

/-- `src/armodel/models/M2/AUTOSARTemplates/SystemTemplate/Fibex/FibexCore/CoreTopology.py` -/
def enumRows26 : List EnumRow := [
  ⟨k!"CycleRepetitionType", [], some [], 58⟩,
  ⟨k!"FlexrayChannelName", [(k!"CHANNEL_A", "channelA"), (k!"channel_B", "channelB")], some ["channelA", "channelB"], 346⟩,
  ⟨k!"PncGatewayTypeEnum", [(k!"ENUM_ACTIVE", "active"), (k!"ENUM_NONE", "none"), (k!"ENUM_PASSIVE", "passive")], some ["active", "none", "passive"], 749⟩,
  ⟨k!"CommunicationDirectionType", [(k!"ENUM_IN", "in"), (k!"ENUM_OUT", "out")], some ["in", "out"], 767⟩]

/-- `src/armodel/models/M2/AUTOSARTemplates/SystemTemplate/NetworkManagement.py` -/
def enumRows27 : List EnumRow := [
  ⟨k!"NmCoordinatorRoleEnum", [(k!"ACTIVE", "active"), (k!"PASSIVE", "passive")], some ["active", "passive"], 110⟩,
  ⟨k!"J1939NmAddressConfigurationCapabilityEnum", [(k!"J1939NM_AAC", "J-1939-NM-AAC"), (k!"J1939NM_CCA", "J-1939-NM-CCA"), (k!"J1939NM_NCA", "J-1939-NM-NCA"), (k!"J1939NM_SCA", "J-1939-NM-SCA"), (k!"J1939NM_SVCA", "J-1939-NM-SVCA")], some ["J-1939-NM-AAC", "J-1939-NM-CCA", "J-1939-NM-NCA", "J-1939-NM-SCA", "J-1939-NM-SVCA"], 397⟩]

/-- `src/armodel/models/M2/AUTOSARTemplates/SystemTemplate/Transformer/__init__.py` -/
def enumRows28 : List EnumRow := [
  ⟨k!"DataTransformationKindEnum", [(k!"ASYMMETRIC_FROM_BYTE_ARRAY", "asymmetricFromByteArray"), (k!"ASYMMETRIC_TO_BYTE_ARRAY", "asymmetricToByteArray"), (k!"SYMMETRIC", "symmetric")], some ["asymmetricFromByteArray", "asymmetricToByteArray", "symmetric"], 16⟩,
  ⟨k!"DataIdModeEnum", [(k!"ALL_16_BIT", "all16Bit"), (k!"ALTERNATING_8_BIT", "alternating8Bit"), (k!"LOWER_12_BIT", "lower12Bit"), (k!"LOWER_8_BIT", "lower8Bit")], some ["all16Bit", "alternating8Bit", "lower12Bit", "lower8Bit"], 195⟩,
  ⟨k!"EndToEndProfileBehaviorEnum", [(k!"PRE_R4_2", "PRE_R4_2"), (k!"R4_2", "R4_2")], some ["PRE_R4_2", "R4_2"], 228⟩,
  ⟨k!"TransformerClassEnum", [(k!"CUSTOM", "custom"), (k!"SAFETY", "safety"), (k!"SECURITY", "security"), (k!"SERIALIZER", "serializer")], some ["custom", "safety", "security", "serializer"], 766⟩,
  ⟨k!"CSTransformerErrorReactionEnum", [(k!"APPLICATION_ONLY", "applicationOnly"), (k!"AUTONOMOUS", "autonomous")], some ["applicationOnly", "autonomous"], 988⟩]

/-- `src/armodel/models/M2/MSR/AsamHdo/Constraints/GlobalConstraints.py` -/
def enumRows29 : List EnumRow := [
  ⟨k!"ScaleConstrValidityEnum", [(k!"NOT_AVAILABLE", "notAvailable"), (k!"NOT_DEFINED", "notDefined"), (k!"NOT_VALID", "notValid"), (k!"VALID", "valid")], some ["notAvailable", "notDefined", "notValid", "valid"], 147⟩]

/-- `src/armodel/models/M2/MSR/DataDictionary/AuxillaryObjects.py` -/
def enumRows30 : List EnumRow := [
  ⟨k!"MemoryAllocationKeywordPolicyType", [(k!"ADDR_METHOD_SHORT_NAME", "addrMethodShortName"), (k!"ADDR_METHOD_SHORT_NAME_AND_ALIGNMENT", "addrMethodShortNameAndAlignment")], some ["addrMethodShortName", "addrMethodShortNameAndAlignment"], 8⟩,
  ⟨k!"MemorySectionType", [(k!"CALIBRATION_VARIABLES", "calibrationVariables"), (k!"CALPRM", "calprm"), (k!"CODE", "code"), (k!"CONFIG_DATA", "configData"), (k!"CONST", "const"), (k!"EXCLUDE_FROM_FLASH", "excludeFromFlash"), (k!"VAR", "var")], some ["calibrationVariables", "calprm", "code", "configData", "const", "excludeFromFlash", "var"], 34⟩]

/-- `src/armodel/models/M2/MSR/DataDictionary/CalibrationParameter.py` -/
def enumRows31 : List EnumRow := [
  ⟨k!"CalprmAxisCategoryEnum", [(k!"COM_AXIS", "COM_AXIS"), (k!"FIX_AXIS", "FIX_AXIS"), (k!"RES_AXIS", "RES_AXIS"), (k!"STD_AXIS", "STD_AXIS")], some ["COM_AXIS", "FIX_AXIS", "RES_AXIS", "STD_AXIS"], 13⟩]

/-- `src/armodel/models/M2/MSR/DataDictionary/DataDefProperties.py` -/
def enumRows32 : List EnumRow := [
  ⟨k!"SwImplPolicyEnum", [(k!"CONST", "const"), (k!"FIXED", "fixed"), (k!"MEASUREMENT_POINT", "measurementPoint"), (k!"QUEUED", "queued"), (k!"STANDARD", "standard")], some ["const", "fixed", "measurementPoint", "queued", "standard"], 29⟩,
  ⟨k!"SwCalibrationAccessEnum", [(k!"NOT_ACCESSIBLE", "notAccessible"), (k!"READ_ONLY", "readOnly"), (k!"READ_WRITE", "readWrite")], some ["notAccessible", "readOnly", "readWrite"], 69⟩,
  ⟨k!"DisplayPresentationEnum", [(k!"PRESENTATION_CONTINUOUS", "presentationContinuous"), (k!"PRESENTATION_DISCRETE", "presentationDiscrete")], some ["presentationContinuous", "presentationDiscrete"], 94⟩]

/-- `src/armodel/models/M2/MSR/Documentation/BlockElements/Figure.py` -/
def enumRows33 : List EnumRow := [
  ⟨k!"GraphicFitEnum", [], none, 8⟩]

/-- `src/armodel/models/M2/MSR/Documentation/BlockElements/OasisExchangeTable.py` -/
def enumRows34 : List EnumRow := [
  ⟨k!"FloatEnum", [(k!"FLOAT", "float"), (k!"NO_FLOAT", "noFloat")], some ["float", "noFloat"], 6⟩,
  ⟨k!"PgwideEnum", [(k!"NO_PGWIDE", "noPgwide"), (k!"PGWIDE", "pgwide")], some ["noPgwide", "pgwide"], 33⟩]

/-- `src/armodel/models/M2/MSR/Documentation/TextModel/BlockElements/ListElements.py` -/
def enumRows35 : List EnumRow := [
  ⟨k!"ListEnum", [(k!"NUMBER", "number"), (k!"UNNUMBER", "unnumber")], some ["number", "unnumber"], 15⟩,
  ⟨k!"ItemLabelPosEnum", [(k!"NEWLINE", "newline"), (k!"NEWLINE_IF_NECESSARY", "newlineIfNecessary"), (k!"NO_NEWLINE", "noNewline")], some ["newline", "newlineIfNecessary", "noNewline"], 89⟩]

/-- `src/armodel/models/M2/MSR/Documentation/TextModel/BlockElements/Note.py` -/
def enumRows36 : List EnumRow := [
  ⟨k!"NoteTypeEnum", [(k!"CAUTION", "caution"), (k!"EXAMPLE", "example"), (k!"EXERCISE", "exercise"), (k!"HINT", "hint"), (k!"INSTRUCTION", "instruction"), (k!"OTHER", "other"), (k!"TIP", "tip")], some ["caution", "example", "exercise", "hint", "instruction", "other", "tip"], 13⟩]

/-- `src/armodel/models/M2/MSR/Documentation/TextModel/LanguageDataModel.py` -/
def enumRows37 : List EnumRow := [
  ⟨k!"LEnum", [(k!"AA", "aa"), (k!"AB", "ab"), (k!"AF", "af"), (k!"AM", "am"), (k!"AR", "ar"), (k!"AS", "as"), (k!"AY", "ay"), (k!"AZ", "az"), (k!"BA", "ba"), (k!"BE", "be"), (k!"BG", "bg"), (k!"BH", "bh"), (k!"BI", "bi"), (k!"BN", "bn"), (k!"BO", "bo"), (k!"BR", "br"), (k!"CA", "ca"), (k!"CO", "co"), (k!"CS", "cs"), (k!"CY", "cy"), (k!"DA", "da"), (k!"DE", "de"), (k!"DZ", "dz"), (k!"EL", "el"), (k!"EN", "en"), (k!"EO", "eo"), (k!"ES", "es"), (k!"ET", "et"), (k!"EU", "eu"), (k!"FA", "fa"), (k!"FI", "fi"), (k!"FJ", "fj"), (k!"FO", "fo"), (k!"FOR_ALL", "forAll")], some ["aa", "ab", "af", "am", "ar", "as", "ay", "az", "ba", "be", "bg", "bh", "bi", "bn", "bo", "br", "ca", "co", "cs", "cy", "da", "de", "dz", "el", "en", "eo", "es", "et", "eu", "fa", "fi", "fj", "fo", "forAll"], 17⟩]

/-- all enumerations -/
def enumTable : List EnumRow :=
  enumRows00 ++ enumRows01 ++ enumRows02 ++ enumRows03 ++ enumRows04 ++ enumRows05 ++ enumRows06 ++ enumRows07 ++ enumRows08 ++ enumRows09 ++ enumRows10 ++ enumRows11 ++ enumRows12 ++ enumRows13 ++ enumRows14 ++ enumRows15 ++ enumRows16 ++ enumRows17 ++ enumRows18 ++ enumRows19 ++ enumRows20 ++ enumRows21 ++ enumRows22 ++ enumRows23 ++ enumRows24 ++ enumRows25 ++ enumRows26 ++ enumRows27 ++ enumRows28 ++ enumRows29 ++ enumRows30 ++ enumRows31 ++ enumRows32 ++ enumRows33 ++ enumRows34 ++ enumRows35 ++ enumRows36 ++ enumRows37

end Verif.Gen
