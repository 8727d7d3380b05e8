import Verif.Model.Create
/-! Generated by `tools/gen_create.py` from `/repo/src/armodel/models/**`: every method `createX(short_name)`
whose body is one of the patterns of `Verif/Model/Create.lean`. Each row cites its source file and line. -/
namespace Verif.Gen
open Verif Verif.Model

/-- `src/armodel/models/M2/AUTOSARTemplates/BswModuleTemplate/BswBehavior/__init__.py` -/
def createRows00 : List CreateRow := [
  ⟨k!"BswModuleEntity", k!"createBswAsynchronousServerCallPoint", k!"BswAsynchronousServerCallPoint", ⟨.untyped, true, .list, .typed⟩, k!"callPoints", 527⟩,
  ⟨k!"BswModuleEntity", k!"createBswSynchronousServerCallPoint", k!"BswSynchronousServerCallPoint", ⟨.untyped, true, .list, .typed⟩, k!"callPoints", 545⟩,
  ⟨k!"BswModuleEntity", k!"createDataReceivePoint", k!"BswVariableAccess", ⟨.untyped, true, .list, .typed⟩, k!"dataReceivePoints", 572⟩,
  ⟨k!"BswModuleEntity", k!"createDataSendPoint", k!"BswVariableAccess", ⟨.untyped, true, .list, .typed⟩, k!"dataSendPoints", 599⟩,
  ⟨k!"BswInternalBehavior", k!"createBswInternalTriggeringPoint", k!"BswInternalTriggeringPoint", ⟨.untyped, true, .list, .untyped⟩, k!"internalTriggeringPoints", 2599⟩,
  ⟨k!"BswInternalBehavior", k!"createBswCalledEntity", k!"BswCalledEntity", ⟨.untyped, true, .list, .untyped⟩, k!"entities", 2910⟩,
  ⟨k!"BswInternalBehavior", k!"createBswSchedulableEntity", k!"BswSchedulableEntity", ⟨.untyped, true, .list, .untyped⟩, k!"entities", 2935⟩,
  ⟨k!"BswInternalBehavior", k!"createBswInterruptEntity", k!"BswInterruptEntity", ⟨.untyped, true, .list, .untyped⟩, k!"entities", 2960⟩,
  ⟨k!"BswInternalBehavior", k!"createBswModeSwitchEvent", k!"BswModeSwitchEvent", ⟨.untyped, true, .list, .untyped⟩, k!"events", 2994⟩,
  ⟨k!"BswInternalBehavior", k!"createBswTimingEvent", k!"BswTimingEvent", ⟨.untyped, true, .list, .untyped⟩, k!"events", 3019⟩,
  ⟨k!"BswInternalBehavior", k!"createBswDataReceivedEvent", k!"BswDataReceivedEvent", ⟨.untyped, true, .list, .untyped⟩, k!"events", 3044⟩,
  ⟨k!"BswInternalBehavior", k!"createBswInternalTriggerOccurredEvent", k!"BswInternalTriggerOccurredEvent", ⟨.untyped, true, .list, .untyped⟩, k!"events", 3069⟩,
  ⟨k!"BswInternalBehavior", k!"createBswExternalTriggerOccurredEvent", k!"BswExternalTriggerOccurredEvent", ⟨.untyped, true, .list, .untyped⟩, k!"events", 3094⟩,
  ⟨k!"BswInternalBehavior", k!"createBswOperationInvokedEvent", k!"BswOperationInvokedEvent", ⟨.untyped, true, .list, .untyped⟩, k!"events", 3119⟩,
  ⟨k!"BswInternalBehavior", k!"createBswBackgroundEvent", k!"BswBackgroundEvent", ⟨.untyped, true, .list, .untyped⟩, k!"events", 3144⟩,
  ⟨k!"BswInternalBehavior", k!"createBswModeManagerErrorEvent", k!"BswModeManagerErrorEvent", ⟨.untyped, true, .list, .untyped⟩, k!"events", 3169⟩,
  ⟨k!"BswInternalBehavior", k!"createBswModeSwitchedAckEvent", k!"BswModeSwitchedAckEvent", ⟨.untyped, true, .list, .untyped⟩, k!"events", 3194⟩,
  ⟨k!"BswInternalBehavior", k!"createBswAsynchronousServerCallReturnsEvent", k!"BswAsynchronousServerCallReturnsEvent", ⟨.untyped, true, .list, .untyped⟩, k!"events", 3219⟩]

/-- `src/armodel/models/M2/AUTOSARTemplates/BswModuleTemplate/BswInterfaces.py` -/
def createRows01 : List CreateRow := [
  ⟨k!"BswModuleEntry", k!"createArgument", k!"SwServiceArg", ⟨.never, true, .list, .untyped⟩, k!"arguments", 283⟩,
  ⟨k!"BswModuleEntry", k!"createReturnType", k!"SwServiceArg", ⟨.never, true, .field, .untyped⟩, k!"returnType", 395⟩]

/-- `src/armodel/models/M2/AUTOSARTemplates/BswModuleTemplate/BswOverview/__init__.py` -/
def createRows02 : List CreateRow := [
  ⟨k!"BswModuleDescription", k!"createBswModuleDependency", k!"BswModuleDependency", ⟨.untyped, true, .list, .untyped⟩, k!"bswModuleDependencies", 112⟩,
  ⟨k!"BswModuleDescription", k!"createBswInternalBehavior", k!"BswInternalBehavior", ⟨.untyped, true, .list, .untyped⟩, k!"internalBehaviors", 242⟩,
  ⟨k!"BswModuleDescription", k!"createProvidedClientServerEntry", k!"BswModuleClientServerEntry", ⟨.untyped, true, .list, .untyped⟩, k!"providedClientServerEntries", 285⟩,
  ⟨k!"BswModuleDescription", k!"createProvidedData", k!"VariableDataPrototype", ⟨.untyped, true, .list, .untyped⟩, k!"providedDatas", 307⟩,
  ⟨k!"BswModuleDescription", k!"createProvidedModeGroup", k!"ModeDeclarationGroupPrototype", ⟨.untyped, true, .list, .untyped⟩, k!"providedModeGroups", 329⟩,
  ⟨k!"BswModuleDescription", k!"createReleasedTrigger", k!"Trigger", ⟨.untyped, true, .list, .untyped⟩, k!"releasedTriggers", 351⟩,
  ⟨k!"BswModuleDescription", k!"createRequiredClientServerEntry", k!"BswModuleClientServerEntry", ⟨.untyped, true, .list, .untyped⟩, k!"requiredClientServerEntries", 373⟩,
  ⟨k!"BswModuleDescription", k!"createRequiredData", k!"VariableDataPrototype", ⟨.untyped, true, .list, .untyped⟩, k!"requiredDatas", 395⟩,
  ⟨k!"BswModuleDescription", k!"createRequiredModeGroup", k!"ModeDeclarationGroupPrototype", ⟨.untyped, true, .list, .untyped⟩, k!"requiredModeGroups", 417⟩,
  ⟨k!"BswModuleDescription", k!"createRequiredTrigger", k!"Trigger", ⟨.untyped, true, .list, .untyped⟩, k!"requiredTriggers", 439⟩]

/-- `src/armodel/models/M2/AUTOSARTemplates/CommonStructure/FlatMap.py` -/
def createRows03 : List CreateRow := [
  ⟨k!"FlatMap", k!"createFlatInstanceDescriptor", k!"FlatInstanceDescriptor", ⟨.never, true, .list, .untyped⟩, k!"instances", 201⟩]

/-- `src/armodel/models/M2/AUTOSARTemplates/CommonStructure/Implementation.py` -/
def createRows04 : List CreateRow := [
  ⟨k!"Implementation", k!"createCodeDescriptor", k!"Code", ⟨.never, true, .list, .untyped⟩, k!"codeDescriptors", 727⟩,
  ⟨k!"Implementation", k!"createCompiler", k!"Compiler", ⟨.never, true, .list, .untyped⟩, k!"compilers", 752⟩,
  ⟨k!"Implementation", k!"createGeneratedArtifact", k!"DependencyOnArtifact", ⟨.never, true, .list, .untyped⟩, k!"generatedArtifacts", 778⟩,
  ⟨k!"Implementation", k!"createLinker", k!"Linker", ⟨.never, true, .list, .untyped⟩, k!"linkers", 828⟩,
  ⟨k!"Implementation", k!"createRequiredArtifact", k!"DependencyOnArtifact", ⟨.never, true, .list, .untyped⟩, k!"requiredArtifacts", 901⟩,
  ⟨k!"Implementation", k!"createRequiredGeneratorTool", k!"DependencyOnArtifact", ⟨.never, true, .list, .untyped⟩, k!"requiredGeneratorTools", 927⟩,
  ⟨k!"Implementation", k!"createResourceConsumption", k!"ResourceConsumption", ⟨.never, true, .field, .untyped⟩, k!"resourceConsumption", 953⟩]

/-- `src/armodel/models/M2/AUTOSARTemplates/CommonStructure/ImplementationDataTypes.py` -/
def createRows05 : List CreateRow := [
  ⟨k!"ImplementationDataTypeElement", k!"createImplementationDataTypeElement", k!"ImplementationDataTypeElement", ⟨.untyped, true, .list, .typed⟩, k!"subElements", 110⟩,
  ⟨k!"ImplementationDataType", k!"createImplementationDataTypeElement", k!"ImplementationDataTypeElement", ⟨.untyped, true, .list, .typed⟩, k!"subElements", 248⟩,
  ⟨k!"ImplementationDataType", k!"createSymbolProps", k!"SymbolProps", ⟨.never, true, .field, .field⟩, k!"symbolProps", 276⟩]

/-- `src/armodel/models/M2/AUTOSARTemplates/CommonStructure/InternalBehavior.py` -/
def createRows06 : List CreateRow := [
  ⟨k!"ExecutableEntity", k!"createActivationReason", k!"ExecutableEntityActivationReason", ⟨.untyped, true, .list, .untyped⟩, k!"activationReasons", 127⟩,
  ⟨k!"InternalBehavior", k!"createConstantMemory", k!"ParameterDataPrototype", ⟨.never, true, .list, .untyped⟩, k!"constantMemories", 372⟩,
  ⟨k!"InternalBehavior", k!"createExclusiveArea", k!"ExclusiveArea", ⟨.never, true, .list, .untyped⟩, k!"exclusiveAreas", 415⟩,
  ⟨k!"InternalBehavior", k!"createExclusiveAreaNestingOrder", k!"ExclusiveAreaNestingOrder", ⟨.never, true, .list, .untyped⟩, k!"exclusiveAreaNestingOrders", 440⟩,
  ⟨k!"InternalBehavior", k!"createStaticMemory", k!"VariableDataPrototype", ⟨.never, true, .list, .untyped⟩, k!"staticMemories", 475⟩]

/-- `src/armodel/models/M2/AUTOSARTemplates/CommonStructure/MeasurementCalibrationSupport/RptSupport/__init__.py` -/
def createRows07 : List CreateRow := [
  ⟨k!"RptExecutableEntity", k!"createRptExecutableEntityEvent", k!"RptExecutableEntityEvent", ⟨.listName, false, .list, .new⟩, k!"rptExecutableEntityEvents", 681⟩,
  ⟨k!"RptComponent", k!"createRptExecutableEntity", k!"RptExecutableEntity", ⟨.listName, false, .list, .new⟩, k!"rptExecutableEntities", 864⟩,
  ⟨k!"RptSupportData", k!"createExecutionContext", k!"RptExecutionContext", ⟨.listName, false, .list, .new⟩, k!"executionContexts", 923⟩,
  ⟨k!"RptSupportData", k!"createRptComponent", k!"RptComponent", ⟨.listName, false, .list, .new⟩, k!"rptComponents", 950⟩,
  ⟨k!"RptSupportData", k!"createRptServicePoint", k!"RptServicePoint", ⟨.listName, false, .list, .new⟩, k!"rptServicePoints", 977⟩]

/-- `src/armodel/models/M2/AUTOSARTemplates/CommonStructure/MeasurementCalibrationSupport/__init__.py` -/
def createRows08 : List CreateRow := [
  ⟨k!"McDataInstance", k!"createSubElement", k!"McDataInstance", ⟨.listName, false, .list, .new⟩, k!"subElements", 1330⟩,
  ⟨k!"McSupportData", k!"createMcParameterInstance", k!"McDataInstance", ⟨.listName, false, .list, .new⟩, k!"mcParameterInstances", 1447⟩,
  ⟨k!"McSupportData", k!"createMcVariableInstance", k!"McDataInstance", ⟨.listName, false, .list, .new⟩, k!"mcVariableInstances", 1474⟩]

/-- `src/armodel/models/M2/AUTOSARTemplates/CommonStructure/ModeDeclaration.py` -/
def createRows09 : List CreateRow := [
  ⟨k!"ModeDeclarationGroup", k!"createModeDeclaration", k!"ModeDeclaration", ⟨.untyped, true, .nowhere, .typed⟩, k!"", 310⟩,
  ⟨k!"ModeDeclarationGroup", k!"createModeTransition", k!"ModeTransition", ⟨.untyped, true, .list, .typed⟩, k!"modeTransitions", 382⟩]

/-- `src/armodel/models/M2/AUTOSARTemplates/CommonStructure/ResourceConsumption/__init__.py` -/
def createRows10 : List CreateRow := [
  ⟨k!"ResourceConsumption", k!"createAnalyzedExecutionTime", k!"AnalyzedExecutionTime", ⟨.never, true, .list, .untyped⟩, k!"executionTimes", 300⟩,
  ⟨k!"ResourceConsumption", k!"createMeasuredExecutionTime", k!"MeasuredExecutionTime", ⟨.never, true, .list, .untyped⟩, k!"executionTimes", 316⟩,
  ⟨k!"ResourceConsumption", k!"createRoughEstimateOfExecutionTime", k!"RoughEstimateOfExecutionTime", ⟨.never, true, .list, .untyped⟩, k!"executionTimes", 332⟩,
  ⟨k!"ResourceConsumption", k!"createSimulatedExecutionTime", k!"SimulatedExecutionTime", ⟨.never, true, .list, .untyped⟩, k!"executionTimes", 348⟩,
  ⟨k!"ResourceConsumption", k!"createMeasuredHeapUsage", k!"MeasuredHeapUsage", ⟨.never, true, .list, .untyped⟩, k!"heapUsages", 375⟩,
  ⟨k!"ResourceConsumption", k!"createRoughEstimateHeapUsage", k!"RoughEstimateHeapUsage", ⟨.never, true, .list, .untyped⟩, k!"heapUsages", 391⟩,
  ⟨k!"ResourceConsumption", k!"createWorstCaseHeapUsage", k!"WorstCaseHeapUsage", ⟨.never, true, .list, .untyped⟩, k!"heapUsages", 407⟩,
  ⟨k!"ResourceConsumption", k!"createMemorySection", k!"MemorySection", ⟨.never, true, .list, .untyped⟩, k!"memorySections", 432⟩,
  ⟨k!"ResourceConsumption", k!"createSectionNamePrefix", k!"SectionNamePrefix", ⟨.never, true, .list, .untyped⟩, k!"sectionNamePrefixes", 469⟩,
  ⟨k!"ResourceConsumption", k!"createMeasuredStackUsage", k!"MeasuredStackUsage", ⟨.never, true, .list, .untyped⟩, k!"stackUsages", 494⟩,
  ⟨k!"ResourceConsumption", k!"createRoughEstimateStackUsage", k!"RoughEstimateStackUsage", ⟨.never, true, .list, .untyped⟩, k!"stackUsages", 510⟩,
  ⟨k!"ResourceConsumption", k!"createWorstCaseStackUsage", k!"WorstCaseStackUsage", ⟨.never, true, .list, .untyped⟩, k!"stackUsages", 526⟩]

/-- `src/armodel/models/M2/AUTOSARTemplates/CommonStructure/ServiceNeeds.py` -/
def createRows11 : List CreateRow := [
  ⟨k!"DiagnosticEventNeeds", k!"createDiagEventDebounceCounterBased", k!"DiagEventDebounceCounterBased", ⟨.never, true, .field, .untyped⟩, k!"diagEventDebounceAlgorithm", 1775⟩,
  ⟨k!"DiagnosticEventNeeds", k!"createDiagEventDebounceMonitorInternal", k!"DiagEventDebounceMonitorInternal", ⟨.never, true, .field, .untyped⟩, k!"diagEventDebounceAlgorithm", 1791⟩,
  ⟨k!"DiagnosticEventNeeds", k!"createDiagEventDebounceTimeBased", k!"DiagEventDebounceTimeBased", ⟨.never, true, .field, .untyped⟩, k!"diagEventDebounceAlgorithm", 1807⟩,
  ⟨k!"ErrorTracerNeeds", k!"createDevelopmentError", k!"DevelopmentError", ⟨.untyped, true, .list, .untyped⟩, k!"tracedFailures", 3081⟩,
  ⟨k!"ErrorTracerNeeds", k!"createRuntimeError", k!"RuntimeError", ⟨.untyped, true, .list, .untyped⟩, k!"tracedFailures", 3097⟩,
  ⟨k!"ErrorTracerNeeds", k!"createTransientFault", k!"TransientFault", ⟨.untyped, true, .list, .untyped⟩, k!"tracedFailures", 3113⟩,
  ⟨k!"TransientFault", k!"createPossibleErrorReaction", k!"PossibleErrorReaction", ⟨.untyped, true, .list, .untyped⟩, k!"possibleErrorReactions", 4484⟩]

/-- `src/armodel/models/M2/AUTOSARTemplates/CommonStructure/SignalServiceTranslation.py` -/
def createRows12 : List CreateRow := [
  ⟨k!"SignalServiceTranslationEventProps", k!"createSignalServiceTranslationElementProps", k!"SignalServiceTranslationElementProps", ⟨.none, true, .list, .new⟩, k!"elementProps", 160⟩,
  ⟨k!"SignalServiceTranslationProps", k!"createSignalServiceTranslationEventProps", k!"SignalServiceTranslationEventProps", ⟨.none, true, .list, .new⟩, k!"signalServiceTranslationEventProps", 320⟩,
  ⟨k!"SignalServiceTranslationPropsSet", k!"createSignalServiceTranslationProps", k!"SignalServiceTranslationProps", ⟨.none, true, .list, .new⟩, k!"signalServiceTranslationProps", 355⟩]

/-- `src/armodel/models/M2/AUTOSARTemplates/CommonStructure/StandardizationTemplate/Keyword.py` -/
def createRows13 : List CreateRow := [
  ⟨k!"KeywordSet", k!"createKeyword", k!"Keyword", ⟨.untyped, true, .list, .untyped⟩, k!"keywords", 124⟩]

/-- `src/armodel/models/M2/AUTOSARTemplates/CommonStructure/Timing/TimingConstraint/ExecutionOrderConstraint.py` -/
def createRows14 : List CreateRow := [
  ⟨k!"ExecutionOrderConstraint", k!"createEOCExecutableEntityRef", k!"EOCExecutableEntityRef", ⟨.untyped, true, .list, .typed⟩, k!"ordered_elements", 90⟩]

/-- `src/armodel/models/M2/AUTOSARTemplates/CommonStructure/Timing/TimingConstraint/TimingExtensions.py` -/
def createRows15 : List CreateRow := [
  ⟨k!"TimingExtension", k!"createExecutionOrderConstraint", k!"ExecutionOrderConstraint", ⟨.untyped, true, .list, .typed⟩, k!"timing_requirements", 43⟩]

/-- `src/armodel/models/M2/AUTOSARTemplates/ECUCDescriptionTemplate.py` -/
def createRows16 : List CreateRow := [
  ⟨k!"EcucContainerValue", k!"createSubContainer", k!"EcucContainerValue", ⟨.untyped, true, .list, .typed⟩, k!"subContainers", 349⟩,
  ⟨k!"EcucModuleConfigurationValues", k!"createContainer", k!"EcucContainerValue", ⟨.untyped, true, .list, .typed⟩, k!"containers", 390⟩]

/-- `src/armodel/models/M2/AUTOSARTemplates/ECUCParameterDefTemplate.py` -/
def createRows17 : List CreateRow := [
  ⟨k!"EcucEnumerationParamDef", k!"createLiteral", k!"EcucEnumerationLiteralDef", ⟨.untyped, true, .list, .untyped⟩, k!"literals", 1511⟩,
  ⟨k!"EcucChoiceContainerDef", k!"createEcucParamConfContainerDef", k!"EcucParamConfContainerDef", ⟨.untyped, true, .list, .untyped⟩, k!"choices", 1588⟩,
  ⟨k!"EcucParamConfContainerDef", k!"createEcucBooleanParamDef", k!"EcucBooleanParamDef", ⟨.untyped, true, .list, .untyped⟩, k!"parameters", 1647⟩,
  ⟨k!"EcucParamConfContainerDef", k!"createEcucStringParamDef", k!"EcucStringParamDef", ⟨.untyped, true, .list, .untyped⟩, k!"parameters", 1663⟩,
  ⟨k!"EcucParamConfContainerDef", k!"createEcucIntegerParamDef", k!"EcucIntegerParamDef", ⟨.untyped, true, .list, .untyped⟩, k!"parameters", 1680⟩,
  ⟨k!"EcucParamConfContainerDef", k!"createEcucFloatParamDef", k!"EcucFloatParamDef", ⟨.untyped, true, .list, .untyped⟩, k!"parameters", 1697⟩,
  ⟨k!"EcucParamConfContainerDef", k!"createEcucEnumerationParamDef", k!"EcucEnumerationParamDef", ⟨.untyped, true, .list, .untyped⟩, k!"parameters", 1714⟩,
  ⟨k!"EcucParamConfContainerDef", k!"createEcucFunctionNameDef", k!"EcucFunctionNameDef", ⟨.untyped, true, .list, .untyped⟩, k!"parameters", 1731⟩,
  ⟨k!"EcucParamConfContainerDef", k!"createEcucMultilineStringParamDef", k!"EcucMultilineStringParamDef", ⟨.untyped, true, .list, .untyped⟩, k!"parameters", 1747⟩,
  ⟨k!"EcucParamConfContainerDef", k!"createEcucSymbolicNameReferenceDef", k!"EcucSymbolicNameReferenceDef", ⟨.untyped, true, .list, .untyped⟩, k!"references", 1772⟩,
  ⟨k!"EcucParamConfContainerDef", k!"createEcucReferenceDef", k!"EcucReferenceDef", ⟨.untyped, true, .list, .untyped⟩, k!"references", 1788⟩,
  ⟨k!"EcucParamConfContainerDef", k!"createEcucChoiceReferenceDef", k!"EcucChoiceReferenceDef", ⟨.untyped, true, .list, .untyped⟩, k!"references", 1804⟩,
  ⟨k!"EcucParamConfContainerDef", k!"createEcucInstanceReferenceDef", k!"EcucInstanceReferenceDef", ⟨.untyped, true, .list, .untyped⟩, k!"references", 1820⟩,
  ⟨k!"EcucParamConfContainerDef", k!"createEcucChoiceContainerDef", k!"EcucChoiceContainerDef", ⟨.untyped, true, .list, .untyped⟩, k!"subContainers", 1845⟩,
  ⟨k!"EcucParamConfContainerDef", k!"createEcucParamConfContainerDef", k!"EcucParamConfContainerDef", ⟨.untyped, true, .list, .untyped⟩, k!"subContainers", 1861⟩,
  ⟨k!"EcucDestinationUriDefSet", k!"createEcucDestinationUriDef", k!"EcucDestinationUriDef", ⟨.none, false, .list, .new⟩, k!"destinationUriDefs", 2038⟩,
  ⟨k!"EcucModuleDef", k!"createEcucParamConfContainerDef", k!"EcucParamConfContainerDef", ⟨.untyped, true, .list, .untyped⟩, k!"containers", 2408⟩,
  ⟨k!"EcucModuleDef", k!"createEcucChoiceContainerDef", k!"EcucChoiceContainerDef", ⟨.untyped, true, .list, .untyped⟩, k!"containers", 2418⟩]

/-- `src/armodel/models/M2/AUTOSARTemplates/EcuResourceTemplate/HwElementCategory.py` -/
def createRows18 : List CreateRow := [
  ⟨k!"HwAttributeDef", k!"createHwAttributeLiteral", k!"HwAttributeLiteralDef", ⟨.untyped, true, .list, .untyped⟩, k!"hwAttributeLiterals", 86⟩,
  ⟨k!"HwCategory", k!"createHwAttributeDef", k!"HwAttributeDef", ⟨.untyped, true, .list, .untyped⟩, k!"hwAttributeDefs", 154⟩]

/-- `src/armodel/models/M2/AUTOSARTemplates/EcuResourceTemplate/__init__.py` -/
def createRows19 : List CreateRow := [
  ⟨k!"HwPinGroupContent", k!"createHwPin", k!"HwPin", ⟨.none, false, .field, .new⟩, k!"hwPin", 225⟩]

/-- `src/armodel/models/M2/AUTOSARTemplates/GenericStructure/GeneralTemplateClasses/ARPackage.py` -/
def createRows20 : List CreateRow := [
  ⟨k!"ARPackage", k!"createEcuAbstractionSwComponentType", k!"EcuAbstractionSwComponentType", ⟨.typed, true, .nowhere, .typed⟩, k!"", 749⟩,
  ⟨k!"ARPackage", k!"createApplicationSwComponentType", k!"ApplicationSwComponentType", ⟨.typed, true, .nowhere, .typed⟩, k!"", 755⟩,
  ⟨k!"ARPackage", k!"createComplexDeviceDriverSwComponentType", k!"ComplexDeviceDriverSwComponentType", ⟨.typed, true, .nowhere, .typed⟩, k!"", 775⟩,
  ⟨k!"ARPackage", k!"createServiceSwComponentType", k!"ServiceSwComponentType", ⟨.typed, true, .nowhere, .typed⟩, k!"", 781⟩,
  ⟨k!"ARPackage", k!"createSensorActuatorSwComponentType", k!"SensorActuatorSwComponentType", ⟨.typed, true, .nowhere, .typed⟩, k!"", 787⟩,
  ⟨k!"ARPackage", k!"createNvBlockSwComponentType", k!"NvBlockSwComponentType", ⟨.typed, true, .nowhere, .typed⟩, k!"", 793⟩,
  ⟨k!"ARPackage", k!"createServiceProxySwComponentType", k!"ServiceProxySwComponentType", ⟨.typed, true, .nowhere, .typed⟩, k!"", 799⟩,
  ⟨k!"ARPackage", k!"createCompositionSwComponentType", k!"CompositionSwComponentType", ⟨.typed, true, .nowhere, .typed⟩, k!"", 805⟩,
  ⟨k!"ARPackage", k!"createSenderReceiverInterface", k!"SenderReceiverInterface", ⟨.typed, true, .nowhere, .typed⟩, k!"", 811⟩,
  ⟨k!"ARPackage", k!"createParameterInterface", k!"ParameterInterface", ⟨.typed, true, .nowhere, .typed⟩, k!"", 831⟩,
  ⟨k!"ARPackage", k!"createNvDataInterface", k!"NvDataInterface", ⟨.typed, true, .nowhere, .typed⟩, k!"", 837⟩,
  ⟨k!"ARPackage", k!"createGenericEthernetFrame", k!"GenericEthernetFrame", ⟨.typed, true, .nowhere, .typed⟩, k!"", 843⟩,
  ⟨k!"ARPackage", k!"createLifeCycleInfoSet", k!"LifeCycleInfoSet", ⟨.typed, true, .nowhere, .typed⟩, k!"", 849⟩,
  ⟨k!"ARPackage", k!"createDocumentation", k!"Documentation", ⟨.typed, true, .nowhere, .typed⟩, k!"", 855⟩,
  ⟨k!"ARPackage", k!"createClientServerInterface", k!"ClientServerInterface", ⟨.typed, true, .nowhere, .typed⟩, k!"", 861⟩,
  ⟨k!"ARPackage", k!"createApplicationPrimitiveDataType", k!"ApplicationPrimitiveDataType", ⟨.typed, true, .nowhere, .typed⟩, k!"", 867⟩,
  ⟨k!"ARPackage", k!"createApplicationRecordDataType", k!"ApplicationRecordDataType", ⟨.typed, true, .nowhere, .typed⟩, k!"", 873⟩,
  ⟨k!"ARPackage", k!"createImplementationDataType", k!"ImplementationDataType", ⟨.typed, true, .nowhere, .typed⟩, k!"", 879⟩,
  ⟨k!"ARPackage", k!"createSwBaseType", k!"SwBaseType", ⟨.typed, true, .nowhere, .typed⟩, k!"", 899⟩,
  ⟨k!"ARPackage", k!"createDataTypeMappingSet", k!"DataTypeMappingSet", ⟨.typed, true, .nowhere, .typed⟩, k!"", 905⟩,
  ⟨k!"ARPackage", k!"createCompuMethod", k!"CompuMethod", ⟨.typed, true, .nowhere, .typed⟩, k!"", 911⟩,
  ⟨k!"ARPackage", k!"createBswModuleDescription", k!"BswModuleDescription", ⟨.typed, true, .nowhere, .typed⟩, k!"", 917⟩,
  ⟨k!"ARPackage", k!"createBswModuleEntry", k!"BswModuleEntry", ⟨.typed, true, .nowhere, .typed⟩, k!"", 937⟩,
  ⟨k!"ARPackage", k!"createBswImplementation", k!"BswImplementation", ⟨.typed, true, .nowhere, .typed⟩, k!"", 943⟩,
  ⟨k!"ARPackage", k!"createSwcImplementation", k!"SwcImplementation", ⟨.typed, true, .nowhere, .typed⟩, k!"", 949⟩,
  ⟨k!"ARPackage", k!"createSwcBswMapping", k!"SwcBswMapping", ⟨.typed, true, .nowhere, .typed⟩, k!"", 955⟩,
  ⟨k!"ARPackage", k!"createMcFunction", k!"McFunction", ⟨.typed, true, .nowhere, .typed⟩, k!"", 961⟩,
  ⟨k!"ARPackage", k!"createMcGroup", k!"McGroup", ⟨.typed, true, .nowhere, .typed⟩, k!"", 977⟩,
  ⟨k!"ARPackage", k!"createConstantSpecification", k!"ConstantSpecification", ⟨.typed, true, .nowhere, .typed⟩, k!"", 993⟩,
  ⟨k!"ARPackage", k!"createDataConstr", k!"DataConstr", ⟨.typed, true, .nowhere, .typed⟩, k!"", 999⟩,
  ⟨k!"ARPackage", k!"createUnit", k!"Unit", ⟨.typed, true, .nowhere, .typed⟩, k!"", 1005⟩,
  ⟨k!"ARPackage", k!"createEndToEndProtectionSet", k!"EndToEndProtectionSet", ⟨.typed, true, .nowhere, .typed⟩, k!"", 1011⟩,
  ⟨k!"ARPackage", k!"createApplicationArrayDataType", k!"ApplicationArrayDataType", ⟨.typed, true, .nowhere, .typed⟩, k!"", 1017⟩,
  ⟨k!"ARPackage", k!"createSwRecordLayout", k!"SwRecordLayout", ⟨.typed, true, .nowhere, .typed⟩, k!"", 1023⟩,
  ⟨k!"ARPackage", k!"createSwAddrMethod", k!"SwAddrMethod", ⟨.typed, true, .nowhere, .typed⟩, k!"", 1029⟩,
  ⟨k!"ARPackage", k!"createTriggerInterface", k!"TriggerInterface", ⟨.typed, true, .nowhere, .typed⟩, k!"", 1035⟩,
  ⟨k!"ARPackage", k!"createDataPrototypeGroup", k!"DataPrototypeGroup", ⟨.typed, true, .nowhere, .typed⟩, k!"", 1041⟩,
  ⟨k!"ARPackage", k!"createRunnableEntityGroup", k!"RunnableEntityGroup", ⟨.typed, true, .nowhere, .typed⟩, k!"", 1047⟩,
  ⟨k!"ARPackage", k!"createConsistencyNeeds", k!"ConsistencyNeeds", ⟨.typed, true, .nowhere, .typed⟩, k!"", 1053⟩,
  ⟨k!"ARPackage", k!"createModeDeclarationGroup", k!"ModeDeclarationGroup", ⟨.typed, true, .nowhere, .typed⟩, k!"", 1059⟩,
  ⟨k!"ARPackage", k!"createModeSwitchInterface", k!"ModeSwitchInterface", ⟨.typed, true, .nowhere, .typed⟩, k!"", 1065⟩,
  ⟨k!"ARPackage", k!"createSwcTiming", k!"SwcTiming", ⟨.typed, true, .nowhere, .typed⟩, k!"", 1071⟩,
  ⟨k!"ARPackage", k!"createLinCluster", k!"LinCluster", ⟨.typed, true, .nowhere, .typed⟩, k!"", 1077⟩,
  ⟨k!"ARPackage", k!"createCanCluster", k!"CanCluster", ⟨.typed, true, .nowhere, .typed⟩, k!"", 1083⟩,
  ⟨k!"ARPackage", k!"createLinUnconditionalFrame", k!"LinUnconditionalFrame", ⟨.typed, true, .nowhere, .typed⟩, k!"", 1089⟩,
  ⟨k!"ARPackage", k!"createNmPdu", k!"NmPdu", ⟨.typed, true, .nowhere, .typed⟩, k!"", 1095⟩,
  ⟨k!"ARPackage", k!"createNPdu", k!"NPdu", ⟨.typed, true, .nowhere, .typed⟩, k!"", 1101⟩,
  ⟨k!"ARPackage", k!"createDcmIPdu", k!"DcmIPdu", ⟨.typed, true, .nowhere, .typed⟩, k!"", 1107⟩,
  ⟨k!"ARPackage", k!"createSecuredIPdu", k!"SecuredIPdu", ⟨.typed, true, .nowhere, .typed⟩, k!"", 1113⟩,
  ⟨k!"ARPackage", k!"createNmConfig", k!"NmConfig", ⟨.typed, true, .nowhere, .typed⟩, k!"", 1119⟩,
  ⟨k!"ARPackage", k!"createCanTpConfig", k!"CanTpConfig", ⟨.typed, true, .nowhere, .typed⟩, k!"", 1125⟩,
  ⟨k!"ARPackage", k!"createLinTpConfig", k!"LinTpConfig", ⟨.typed, true, .nowhere, .typed⟩, k!"", 1131⟩,
  ⟨k!"ARPackage", k!"createCanFrame", k!"CanFrame", ⟨.typed, true, .nowhere, .typed⟩, k!"", 1137⟩,
  ⟨k!"ARPackage", k!"createEcuInstance", k!"EcuInstance", ⟨.typed, true, .nowhere, .typed⟩, k!"", 1156⟩,
  ⟨k!"ARPackage", k!"createGateway", k!"Gateway", ⟨.typed, true, .nowhere, .typed⟩, k!"", 1176⟩,
  ⟨k!"ARPackage", k!"createISignal", k!"ISignal", ⟨.typed, true, .nowhere, .typed⟩, k!"", 1182⟩,
  ⟨k!"ARPackage", k!"createSystemSignal", k!"SystemSignal", ⟨.typed, true, .nowhere, .typed⟩, k!"", 1188⟩,
  ⟨k!"ARPackage", k!"createSystemSignalGroup", k!"SystemSignalGroup", ⟨.typed, true, .nowhere, .typed⟩, k!"", 1208⟩,
  ⟨k!"ARPackage", k!"createSignalServiceTranslationPropsSet", k!"SignalServiceTranslationPropsSet", ⟨.typed, true, .nowhere, .typed⟩, k!"", 1214⟩,
  ⟨k!"ARPackage", k!"createISignalIPdu", k!"ISignalIPdu", ⟨.typed, true, .nowhere, .typed⟩, k!"", 1220⟩,
  ⟨k!"ARPackage", k!"createEcucValueCollection", k!"EcucValueCollection", ⟨.typed, true, .nowhere, .typed⟩, k!"", 1226⟩,
  ⟨k!"ARPackage", k!"createEcucModuleConfigurationValues", k!"EcucModuleConfigurationValues", ⟨.typed, true, .nowhere, .typed⟩, k!"", 1232⟩,
  ⟨k!"ARPackage", k!"createEcucModuleDef", k!"EcucModuleDef", ⟨.typed, true, .nowhere, .typed⟩, k!"", 1238⟩,
  ⟨k!"ARPackage", k!"createEcucDefinitionCollection", k!"EcucDefinitionCollection", ⟨.typed, true, .nowhere, .typed⟩, k!"", 1244⟩,
  ⟨k!"ARPackage", k!"createEcucDestinationUriDefSet", k!"EcucDestinationUriDefSet", ⟨.typed, true, .nowhere, .typed⟩, k!"", 1250⟩,
  ⟨k!"ARPackage", k!"createSwSystemConst", k!"SwSystemconst", ⟨.typed, true, .nowhere, .typed⟩, k!"", 1256⟩,
  ⟨k!"ARPackage", k!"createSwSystemconstantValueSet", k!"SwSystemconstantValueSet", ⟨.typed, true, .nowhere, .typed⟩, k!"", 1262⟩,
  ⟨k!"ARPackage", k!"createPredefinedVariant", k!"PredefinedVariant", ⟨.typed, true, .nowhere, .typed⟩, k!"", 1268⟩,
  ⟨k!"ARPackage", k!"createPostBuildVariantCriterion", k!"PostBuildVariantCriterion", ⟨.typed, true, .nowhere, .typed⟩, k!"", 1274⟩,
  ⟨k!"ARPackage", k!"createPhysicalDimension", k!"PhysicalDimension", ⟨.typed, true, .nowhere, .typed⟩, k!"", 1280⟩,
  ⟨k!"ARPackage", k!"createISignalGroup", k!"ISignalGroup", ⟨.typed, true, .nowhere, .typed⟩, k!"", 1286⟩,
  ⟨k!"ARPackage", k!"createISignalIPduGroup", k!"ISignalIPduGroup", ⟨.typed, true, .nowhere, .typed⟩, k!"", 1292⟩,
  ⟨k!"ARPackage", k!"createSystem", k!"System", ⟨.typed, true, .nowhere, .typed⟩, k!"", 1298⟩,
  ⟨k!"ARPackage", k!"createFlatMap", k!"FlatMap", ⟨.typed, true, .nowhere, .typed⟩, k!"", 1304⟩,
  ⟨k!"ARPackage", k!"createPortInterfaceMappingSet", k!"PortInterfaceMappingSet", ⟨.typed, true, .nowhere, .typed⟩, k!"", 1310⟩,
  ⟨k!"ARPackage", k!"createEthernetCluster", k!"EthernetCluster", ⟨.typed, true, .nowhere, .typed⟩, k!"", 1316⟩,
  ⟨k!"ARPackage", k!"createDiagnosticConnection", k!"DiagnosticConnection", ⟨.typed, true, .nowhere, .typed⟩, k!"", 1322⟩,
  ⟨k!"ARPackage", k!"createDiagnosticServiceTable", k!"DiagnosticServiceTable", ⟨.typed, true, .nowhere, .typed⟩, k!"", 1328⟩,
  ⟨k!"ARPackage", k!"createMultiplexedIPdu", k!"MultiplexedIPdu", ⟨.typed, true, .nowhere, .typed⟩, k!"", 1348⟩,
  ⟨k!"ARPackage", k!"createUserDefinedIPdu", k!"UserDefinedIPdu", ⟨.typed, true, .nowhere, .typed⟩, k!"", 1354⟩,
  ⟨k!"ARPackage", k!"createUserDefinedPdu", k!"UserDefinedPdu", ⟨.typed, true, .nowhere, .typed⟩, k!"", 1360⟩,
  ⟨k!"ARPackage", k!"createGeneralPurposeIPdu", k!"GeneralPurposeIPdu", ⟨.typed, true, .nowhere, .typed⟩, k!"", 1366⟩,
  ⟨k!"ARPackage", k!"createGeneralPurposePdu", k!"GeneralPurposePdu", ⟨.typed, true, .nowhere, .typed⟩, k!"", 1372⟩,
  ⟨k!"ARPackage", k!"createSecureCommunicationPropsSet", k!"SecureCommunicationPropsSet", ⟨.typed, true, .nowhere, .typed⟩, k!"", 1378⟩,
  ⟨k!"ARPackage", k!"createSoAdRoutingGroup", k!"SoAdRoutingGroup", ⟨.typed, true, .nowhere, .typed⟩, k!"", 1384⟩,
  ⟨k!"ARPackage", k!"createDoIpTpConfig", k!"DoIpTpConfig", ⟨.typed, true, .nowhere, .typed⟩, k!"", 1390⟩,
  ⟨k!"ARPackage", k!"createHwElement", k!"HwElement", ⟨.typed, true, .nowhere, .typed⟩, k!"", 1396⟩,
  ⟨k!"ARPackage", k!"createHwCategory", k!"HwCategory", ⟨.typed, true, .nowhere, .typed⟩, k!"", 1402⟩,
  ⟨k!"ARPackage", k!"createHwType", k!"HwType", ⟨.typed, true, .nowhere, .typed⟩, k!"", 1408⟩,
  ⟨k!"ARPackage", k!"createFlexrayFrame", k!"FlexrayFrame", ⟨.typed, true, .nowhere, .typed⟩, k!"", 1414⟩,
  ⟨k!"ARPackage", k!"createFlexrayCluster", k!"FlexrayCluster", ⟨.typed, true, .nowhere, .typed⟩, k!"", 1420⟩,
  ⟨k!"ARPackage", k!"createDataTransformationSet", k!"DataTransformationSet", ⟨.typed, true, .nowhere, .typed⟩, k!"", 1426⟩,
  ⟨k!"ARPackage", k!"createE2EProfileCompatibilityProps", k!"E2EProfileCompatibilityProps", ⟨.typed, true, .nowhere, .typed⟩, k!"", 1432⟩,
  ⟨k!"ARPackage", k!"createCollection", k!"Collection", ⟨.typed, true, .nowhere, .typed⟩, k!"", 1438⟩,
  ⟨k!"ARPackage", k!"createKeywordSet", k!"KeywordSet", ⟨.typed, true, .nowhere, .typed⟩, k!"", 1444⟩,
  ⟨k!"ARPackage", k!"createPortPrototypeBlueprint", k!"PortPrototypeBlueprint", ⟨.typed, true, .nowhere, .typed⟩, k!"", 1450⟩,
  ⟨k!"ARPackage", k!"createModeDeclarationMappingSet", k!"ModeDeclarationMappingSet", ⟨.typed, true, .nowhere, .typed⟩, k!"", 1456⟩]

/-- `src/armodel/models/M2/AUTOSARTemplates/SWComponentTemplate/Components/__init__.py` -/
def createRows21 : List CreateRow := [
  ⟨k!"AtomicSwComponentType", k!"createSwcInternalBehavior", k!"SwcInternalBehavior", ⟨.typed, true, .field, .typed⟩, k!"internalBehavior", 542⟩,
  ⟨k!"AtomicSwComponentType", k!"createSymbolProps", k!"SymbolProps", ⟨.typed, true, .field, .typed⟩, k!"symbolProps", 569⟩,
  ⟨k!"NvBlockSwComponentType", k!"createBulkNvDataDescriptor", k!"BulkNvDataDescriptor", ⟨.typed, true, .list, .typed⟩, k!"bulkNvDataDescriptors", 725⟩,
  ⟨k!"NvBlockSwComponentType", k!"createNvBlockDescriptor", k!"NvBlockDescriptor", ⟨.typed, true, .list, .typed⟩, k!"nvBlockDescriptors", 755⟩]

/-- `src/armodel/models/M2/AUTOSARTemplates/SWComponentTemplate/Composition/__init__.py` -/
def createRows22 : List CreateRow := [
  ⟨k!"CompositionSwComponentType", k!"createSwComponentPrototype", k!"SwComponentPrototype", ⟨.untyped, true, .list, .typed⟩, k!"components", 386⟩,
  ⟨k!"CompositionSwComponentType", k!"createAssemblySwConnector", k!"AssemblySwConnector", ⟨.untyped, true, .list, .typed⟩, k!"connectors", 412⟩,
  ⟨k!"CompositionSwComponentType", k!"createDelegationSwConnector", k!"DelegationSwConnector", ⟨.untyped, true, .list, .typed⟩, k!"connectors", 429⟩,
  ⟨k!"CompositionSwComponentType", k!"createPassThroughSwConnector", k!"PassThroughSwConnector", ⟨.untyped, true, .list, .typed⟩, k!"connectors", 446⟩]

/-- `src/armodel/models/M2/AUTOSARTemplates/SWComponentTemplate/Datatype/Datatypes.py` -/
def createRows23 : List CreateRow := [
  ⟨k!"ApplicationArrayDataType", k!"createApplicationArrayElement", k!"ApplicationArrayElement", ⟨.untyped, true, .field, .typed⟩, k!"element", 176⟩,
  ⟨k!"ApplicationRecordDataType", k!"createApplicationRecordElement", k!"ApplicationRecordElement", ⟨.untyped, true, .list, .typed⟩, k!"record_elements", 209⟩]

/-- `src/armodel/models/M2/AUTOSARTemplates/SWComponentTemplate/EndToEndProtection.py` -/
def createRows24 : List CreateRow := [
  ⟨k!"EndToEndProtectionSet", k!"createEndToEndProtection", k!"EndToEndProtection", ⟨.untyped, true, .nowhere, .typed⟩, k!"", 513⟩]

/-- `src/armodel/models/M2/AUTOSARTemplates/SWComponentTemplate/ImplicitCommunicationBehavior/__init__.py` -/
def createRows25 : List CreateRow := [
  ⟨k!"ConsistencyNeeds", k!"createDpgDoesNotRequireCoherency", k!"DataPrototypeGroup", ⟨.untyped, true, .list, .typed⟩, k!"dpgDoesNotRequireCoherency", 238⟩,
  ⟨k!"ConsistencyNeeds", k!"createDpgRequiresCoherency", k!"DataPrototypeGroup", ⟨.untyped, true, .list, .typed⟩, k!"dpgRequiresCoherency", 267⟩,
  ⟨k!"ConsistencyNeeds", k!"createRegDoesNotRequireStability", k!"RunnableEntityGroup", ⟨.untyped, true, .list, .typed⟩, k!"regDoesNotRequireStability", 302⟩,
  ⟨k!"ConsistencyNeeds", k!"createRegRequiresStability", k!"RunnableEntityGroup", ⟨.untyped, true, .list, .typed⟩, k!"regRequiresStability", 331⟩]

/-- `src/armodel/models/M2/AUTOSARTemplates/SWComponentTemplate/PortInterface/__init__.py` -/
def createRows26 : List CreateRow := [
  ⟨k!"NvDataInterface", k!"createNvData", k!"VariableDataPrototype", ⟨.typed, true, .nowhere, .typed⟩, k!"", 172⟩,
  ⟨k!"ParameterInterface", k!"createParameterDataPrototype", k!"ParameterDataPrototype", ⟨.none, true, .list, .new⟩, k!"parameters", 198⟩,
  ⟨k!"SenderReceiverInterface", k!"createDataElement", k!"VariableDataPrototype", ⟨.untyped, true, .nowhere, .typed⟩, k!"", 325⟩,
  ⟨k!"ClientServerOperation", k!"createArgumentDataPrototype", k!"ArgumentDataPrototype", ⟨.untyped, true, .list, .typed⟩, k!"arguments", 560⟩,
  ⟨k!"ClientServerInterface", k!"createOperation", k!"ClientServerOperation", ⟨.untyped, true, .list, .typed⟩, k!"operations", 678⟩,
  ⟨k!"ClientServerInterface", k!"createApplicationError", k!"ApplicationError", ⟨.untyped, true, .list, .typed⟩, k!"possibleErrors", 704⟩,
  ⟨k!"ModeDeclarationMappingSet", k!"createModeDeclarationMapping", k!"ModeDeclarationMapping", ⟨.untyped, true, .list, .untyped⟩, k!"modeDeclarationMappings", 1287⟩,
  ⟨k!"PortInterfaceMappingSet", k!"createVariableAndParameterInterfaceMapping", k!"VariableAndParameterInterfaceMapping", ⟨.untyped, true, .list, .untyped⟩, k!"portInterfaceMappings", 1312⟩,
  ⟨k!"PortInterfaceMappingSet", k!"createClientServerInterfaceMapping", k!"ClientServerInterfaceMapping", ⟨.untyped, true, .list, .untyped⟩, k!"portInterfaceMappings", 1319⟩,
  ⟨k!"PortInterfaceMappingSet", k!"createModeInterfaceMapping", k!"ModeInterfaceMapping", ⟨.untyped, true, .list, .untyped⟩, k!"portInterfaceMappings", 1326⟩,
  ⟨k!"PortInterfaceMappingSet", k!"createTriggerInterfaceMapping", k!"TriggerInterfaceMapping", ⟨.untyped, true, .list, .untyped⟩, k!"portInterfaceMappings", 1333⟩]

/-- `src/armodel/models/M2/AUTOSARTemplates/SWComponentTemplate/SoftwareComponentDocumentation.py` -/
def createRows27 : List CreateRow := [
  ⟨k!"SwComponentDocumentation", k!"createChapter", k!"Chapter", ⟨.listName, false, .list, .new⟩, k!"chapters", 72⟩,
  ⟨k!"SwComponentDocumentation", k!"createSwCalibrationNotes", k!"Chapter", ⟨.fieldNone, false, .field, .field⟩, k!"swCalibrationNotes", 100⟩,
  ⟨k!"SwComponentDocumentation", k!"createSwCarbDoc", k!"Chapter", ⟨.fieldNone, false, .field, .field⟩, k!"swCarbDoc", 125⟩,
  ⟨k!"SwComponentDocumentation", k!"createSwDiagnosticsNotes", k!"Chapter", ⟨.fieldNone, false, .field, .field⟩, k!"swDiagnosticsNotes", 150⟩,
  ⟨k!"SwComponentDocumentation", k!"createSwFeatureDef", k!"Chapter", ⟨.fieldNone, false, .field, .field⟩, k!"swFeatureDef", 175⟩,
  ⟨k!"SwComponentDocumentation", k!"createSwFeatureDesc", k!"Chapter", ⟨.fieldNone, false, .field, .field⟩, k!"swFeatureDesc", 200⟩,
  ⟨k!"SwComponentDocumentation", k!"createSwMaintenanceNotes", k!"Chapter", ⟨.fieldNone, false, .field, .field⟩, k!"swMaintenanceNotes", 225⟩,
  ⟨k!"SwComponentDocumentation", k!"createSwTestDesc", k!"Chapter", ⟨.fieldNone, false, .field, .field⟩, k!"swTestDesc", 250⟩]

/-- `src/armodel/models/M2/AUTOSARTemplates/SWComponentTemplate/SwComponentType.py` -/
def createRows28 : List CreateRow := [
  ⟨k!"SwComponentType", k!"createConsistencyNeeds", k!"ConsistencyNeeds", ⟨.typed, true, .list, .typed⟩, k!"consistencyNeeds", 81⟩,
  ⟨k!"SwComponentType", k!"createPPortPrototype", k!"PPortPrototype", ⟨.typed, true, .list, .typed⟩, k!"ports", 109⟩,
  ⟨k!"SwComponentType", k!"createRPortPrototype", k!"RPortPrototype", ⟨.typed, true, .list, .typed⟩, k!"ports", 128⟩,
  ⟨k!"SwComponentType", k!"createPRPortPrototype", k!"PRPortPrototype", ⟨.typed, true, .list, .typed⟩, k!"ports", 147⟩,
  ⟨k!"SwComponentType", k!"createPortGroup", k!"PortGroup", ⟨.typed, true, .list, .typed⟩, k!"portGroups", 219⟩]

/-- `src/armodel/models/M2/AUTOSARTemplates/SWComponentTemplate/SwcInternalBehavior/ServiceMapping.py` -/
def createRows29 : List CreateRow := [
  ⟨k!"SwcServiceDependency", k!"createNvBlockNeeds", k!"NvBlockNeeds", ⟨.untyped, true, .field, .untyped⟩, k!"serviceNeeds", 218⟩,
  ⟨k!"SwcServiceDependency", k!"createDiagnosticCommunicationManagerNeeds", k!"DiagnosticCommunicationManagerNeeds", ⟨.untyped, true, .field, .untyped⟩, k!"serviceNeeds", 234⟩,
  ⟨k!"SwcServiceDependency", k!"createDiagnosticRoutineNeeds", k!"DiagnosticRoutineNeeds", ⟨.untyped, true, .field, .untyped⟩, k!"serviceNeeds", 251⟩,
  ⟨k!"SwcServiceDependency", k!"createDiagnosticValueNeeds", k!"DiagnosticValueNeeds", ⟨.untyped, true, .field, .untyped⟩, k!"serviceNeeds", 267⟩,
  ⟨k!"SwcServiceDependency", k!"createDiagnosticEventNeeds", k!"DiagnosticEventNeeds", ⟨.untyped, true, .field, .untyped⟩, k!"serviceNeeds", 283⟩,
  ⟨k!"SwcServiceDependency", k!"createDiagnosticEventInfoNeeds", k!"DiagnosticEventInfoNeeds", ⟨.untyped, true, .field, .untyped⟩, k!"serviceNeeds", 299⟩,
  ⟨k!"SwcServiceDependency", k!"createCryptoServiceNeeds", k!"CryptoServiceNeeds", ⟨.untyped, true, .field, .untyped⟩, k!"serviceNeeds", 315⟩,
  ⟨k!"SwcServiceDependency", k!"createEcuStateMgrUserNeeds", k!"EcuStateMgrUserNeeds", ⟨.untyped, true, .field, .untyped⟩, k!"serviceNeeds", 331⟩,
  ⟨k!"SwcServiceDependency", k!"createDtcStatusChangeNotificationNeeds", k!"DtcStatusChangeNotificationNeeds", ⟨.untyped, true, .field, .untyped⟩, k!"serviceNeeds", 347⟩,
  ⟨k!"SwcServiceDependency", k!"createDiagnosticIoControlNeeds", k!"DiagnosticIoControlNeeds", ⟨.untyped, true, .field, .untyped⟩, k!"serviceNeeds", 364⟩,
  ⟨k!"SwcServiceDependency", k!"createDiagnosticEnableConditionNeeds", k!"DiagnosticEnableConditionNeeds", ⟨.untyped, true, .field, .untyped⟩, k!"serviceNeeds", 380⟩,
  ⟨k!"SwcServiceDependency", k!"createDiagnosticOperationCycleNeeds", k!"DiagnosticOperationCycleNeeds", ⟨.untyped, true, .field, .untyped⟩, k!"serviceNeeds", 396⟩,
  ⟨k!"SwcServiceDependency", k!"createDiagnosticStorageConditionNeeds", k!"DiagnosticStorageConditionNeeds", ⟨.untyped, true, .field, .untyped⟩, k!"serviceNeeds", 412⟩,
  ⟨k!"SwcServiceDependency", k!"createFunctionInhibitionAvailabilityNeeds", k!"FunctionInhibitionAvailabilityNeeds", ⟨.untyped, true, .field, .untyped⟩, k!"serviceNeeds", 428⟩,
  ⟨k!"SwcServiceDependency", k!"createIndicatorStatusNeeds", k!"IndicatorStatusNeeds", ⟨.untyped, true, .field, .untyped⟩, k!"serviceNeeds", 444⟩,
  ⟨k!"SwcServiceDependency", k!"createDltUserNeeds", k!"DltUserNeeds", ⟨.untyped, true, .field, .untyped⟩, k!"serviceNeeds", 460⟩,
  ⟨k!"SwcServiceDependency", k!"createComMgrUserNeeds", k!"ComMgrUserNeeds", ⟨.untyped, true, .field, .untyped⟩, k!"serviceNeeds", 476⟩,
  ⟨k!"SwcServiceDependency", k!"createErrorTracerNeeds", k!"ErrorTracerNeeds", ⟨.untyped, true, .field, .untyped⟩, k!"serviceNeeds", 492⟩,
  ⟨k!"SwcServiceDependency", k!"createObdInfoServiceNeeds", k!"ObdInfoServiceNeeds", ⟨.untyped, true, .field, .untyped⟩, k!"serviceNeeds", 508⟩,
  ⟨k!"SwcServiceDependency", k!"createObdMonitorServiceNeeds", k!"ObdMonitorServiceNeeds", ⟨.untyped, true, .field, .untyped⟩, k!"serviceNeeds", 524⟩,
  ⟨k!"SwcServiceDependency", k!"createObdPidServiceNeeds", k!"ObdPidServiceNeeds", ⟨.untyped, true, .field, .untyped⟩, k!"serviceNeeds", 540⟩,
  ⟨k!"SwcServiceDependency", k!"createObdControlServiceNeeds", k!"ObdControlServiceNeeds", ⟨.untyped, true, .field, .untyped⟩, k!"serviceNeeds", 556⟩,
  ⟨k!"SwcServiceDependency", k!"createObdRatioServiceNeeds", k!"ObdRatioServiceNeeds", ⟨.untyped, true, .field, .untyped⟩, k!"serviceNeeds", 572⟩,
  ⟨k!"SwcServiceDependency", k!"createObdRatioDenominatorNeeds", k!"ObdRatioDenominatorNeeds", ⟨.untyped, true, .field, .untyped⟩, k!"serviceNeeds", 588⟩,
  ⟨k!"SwcServiceDependency", k!"createDoIpRoutingActivationAuthenticationNeeds", k!"DoIpRoutingActivationAuthenticationNeeds", ⟨.untyped, true, .field, .untyped⟩, k!"serviceNeeds", 604⟩,
  ⟨k!"SwcServiceDependency", k!"createDoIpRoutingActivationConfirmationNeeds", k!"DoIpRoutingActivationConfirmationNeeds", ⟨.untyped, true, .field, .untyped⟩, k!"serviceNeeds", 620⟩,
  ⟨k!"SwcServiceDependency", k!"createSecureOnBoardCommunicationNeeds", k!"SecureOnBoardCommunicationNeeds", ⟨.untyped, true, .field, .untyped⟩, k!"serviceNeeds", 636⟩,
  ⟨k!"SwcServiceDependency", k!"createIdsMgrNeeds", k!"IdsMgrNeeds", ⟨.untyped, true, .field, .untyped⟩, k!"serviceNeeds", 652⟩]

/-- `src/armodel/models/M2/AUTOSARTemplates/SWComponentTemplate/SwcInternalBehavior/Trigger.py` -/
def createRows30 : List CreateRow := [
  ⟨k!"ExternalTriggeringPoint", k!"createIdent", k!"ExternalTriggeringPointIdent", ⟨.fieldNone, false, .field, .field⟩, k!"ident", 100⟩]

/-- `src/armodel/models/M2/AUTOSARTemplates/SWComponentTemplate/SwcInternalBehavior/__init__.py` -/
def createRows31 : List CreateRow := [
  ⟨k!"RunnableEntity", k!"createDataReadAccess", k!"VariableAccess", ⟨.untyped, true, .list, .typed⟩, k!"dataReadAccesses", 284⟩,
  ⟨k!"RunnableEntity", k!"createDataWriteAccess", k!"VariableAccess", ⟨.untyped, true, .list, .typed⟩, k!"dataWriteAccesses", 307⟩,
  ⟨k!"RunnableEntity", k!"createDataReceivePointByArgument", k!"VariableAccess", ⟨.untyped, true, .list, .typed⟩, k!"dataReceivePointByArguments", 330⟩,
  ⟨k!"RunnableEntity", k!"createDataReceivePointByValue", k!"VariableAccess", ⟨.untyped, true, .list, .typed⟩, k!"dataReceivePointByValues", 355⟩,
  ⟨k!"RunnableEntity", k!"createDataSendPoint", k!"VariableAccess", ⟨.untyped, true, .list, .typed⟩, k!"dataSendPoints", 380⟩,
  ⟨k!"RunnableEntity", k!"createReadLocalVariable", k!"VariableAccess", ⟨.untyped, true, .list, .typed⟩, k!"readLocalVariables", 403⟩,
  ⟨k!"RunnableEntity", k!"createWrittenLocalVariable", k!"VariableAccess", ⟨.untyped, true, .list, .typed⟩, k!"writtenLocalVariables", 426⟩,
  ⟨k!"RunnableEntity", k!"createParameterAccess", k!"ParameterAccess", ⟨.untyped, true, .nowhere, .untyped⟩, k!"", 459⟩,
  ⟨k!"RunnableEntity", k!"createSynchronousServerCallPoint", k!"SynchronousServerCallPoint", ⟨.never, true, .nowhere, .untyped⟩, k!"", 475⟩,
  ⟨k!"RunnableEntity", k!"createAsynchronousServerCallPoint", k!"AsynchronousServerCallPoint", ⟨.never, true, .nowhere, .typed⟩, k!"", 491⟩,
  ⟨k!"RunnableEntity", k!"createAsynchronousServerCallResultPoint", k!"AsynchronousServerCallResultPoint", ⟨.never, true, .nowhere, .untyped⟩, k!"", 507⟩,
  ⟨k!"RunnableEntity", k!"createInternalTriggeringPoint", k!"InternalTriggeringPoint", ⟨.untyped, true, .nowhere, .typed⟩, k!"", 563⟩,
  ⟨k!"RunnableEntity", k!"createModeSwitchPoint", k!"ModeSwitchPoint", ⟨.untyped, true, .list, .typed⟩, k!"modeSwitchPoints", 647⟩,
  ⟨k!"RunnableEntity", k!"createWaitPoint", k!"WaitPoint", ⟨.untyped, true, .list, .typed⟩, k!"waitPoints", 688⟩,
  ⟨k!"SwcInternalBehavior", k!"createArTypedPerInstanceMemory", k!"VariableDataPrototype", ⟨.untyped, true, .list, .untyped⟩, k!"arTypedPerInstanceMemories", 913⟩,
  ⟨k!"SwcInternalBehavior", k!"createExplicitInterRunnableVariable", k!"VariableDataPrototype", ⟨.untyped, true, .list, .untyped⟩, k!"explicitInterRunnableVariables", 925⟩,
  ⟨k!"SwcInternalBehavior", k!"createImplicitInterRunnableVariable", k!"VariableDataPrototype", ⟨.untyped, true, .list, .untyped⟩, k!"implicitInterRunnableVariables", 951⟩,
  ⟨k!"SwcInternalBehavior", k!"createPerInstanceMemory", k!"PerInstanceMemory", ⟨.untyped, true, .list, .untyped⟩, k!"perInstanceMemories", 963⟩,
  ⟨k!"SwcInternalBehavior", k!"createPerInstanceParameter", k!"ParameterDataPrototype", ⟨.untyped, true, .list, .untyped⟩, k!"perInstanceParameters", 975⟩,
  ⟨k!"SwcInternalBehavior", k!"createSharedParameter", k!"ParameterDataPrototype", ⟨.untyped, true, .list, .untyped⟩, k!"sharedParameters", 987⟩,
  ⟨k!"SwcInternalBehavior", k!"createOperationInvokedEvent", k!"OperationInvokedEvent", ⟨.untyped, true, .nowhere, .typed⟩, k!"", 1050⟩,
  ⟨k!"SwcInternalBehavior", k!"createTimingEvent", k!"TimingEvent", ⟨.untyped, true, .nowhere, .typed⟩, k!"", 1057⟩,
  ⟨k!"SwcInternalBehavior", k!"createInitEvent", k!"InitEvent", ⟨.untyped, true, .nowhere, .typed⟩, k!"", 1064⟩,
  ⟨k!"SwcInternalBehavior", k!"createAsynchronousServerCallReturnsEvent", k!"AsynchronousServerCallReturnsEvent", ⟨.untyped, true, .nowhere, .typed⟩, k!"", 1071⟩,
  ⟨k!"SwcInternalBehavior", k!"createDataReceivedEvent", k!"DataReceivedEvent", ⟨.untyped, true, .nowhere, .typed⟩, k!"", 1078⟩,
  ⟨k!"SwcInternalBehavior", k!"createSwcModeSwitchEvent", k!"SwcModeSwitchEvent", ⟨.untyped, true, .nowhere, .typed⟩, k!"", 1085⟩,
  ⟨k!"SwcInternalBehavior", k!"createInternalTriggerOccurredEvent", k!"InternalTriggerOccurredEvent", ⟨.untyped, true, .nowhere, .typed⟩, k!"", 1092⟩,
  ⟨k!"SwcInternalBehavior", k!"createModeSwitchedAckEvent", k!"ModeSwitchedAckEvent", ⟨.untyped, true, .nowhere, .typed⟩, k!"", 1099⟩,
  ⟨k!"SwcInternalBehavior", k!"createBackgroundEvent", k!"BackgroundEvent", ⟨.untyped, true, .nowhere, .typed⟩, k!"", 1106⟩,
  ⟨k!"SwcInternalBehavior", k!"createDataSendCompletedEvent", k!"DataSendCompletedEvent", ⟨.untyped, true, .nowhere, .typed⟩, k!"", 1113⟩,
  ⟨k!"SwcInternalBehavior", k!"createSwcServiceDependency", k!"SwcServiceDependency", ⟨.untyped, true, .nowhere, .typed⟩, k!"", 1120⟩,
  ⟨k!"SwcInternalBehavior", k!"createRunnableEntity", k!"RunnableEntity", ⟨.untyped, true, .nowhere, .untyped⟩, k!"", 1179⟩]

/-- `src/armodel/models/M2/AUTOSARTemplates/SystemTemplate/Fibex/Fibex4Ethernet/EthernetTopology.py` -/
def createRows32 : List CreateRow := [
  ⟨k!"EthernetCluster", k!"createMacMulticastGroup", k!"MacMulticastGroup", ⟨.never, true, .list, .untyped⟩, k!"macMulticastGroups", 88⟩,
  ⟨k!"CouplingPortDetails", k!"createCouplingPortFifo", k!"CouplingPortFifo", ⟨.none, false, .list, .new⟩, k!"couplingPortStructuralElements", 292⟩,
  ⟨k!"CouplingPortDetails", k!"createCouplingPortScheduler", k!"CouplingPortScheduler", ⟨.none, false, .list, .new⟩, k!"couplingPortStructuralElements", 297⟩,
  ⟨k!"CouplingPortDetails", k!"createEthernetPriorityRegeneration", k!"EthernetPriorityRegeneration", ⟨.none, false, .list, .new⟩, k!"ethernetPriorityRegenerations", 302⟩,
  ⟨k!"EthernetCommunicationController", k!"createCouplingPort", k!"CouplingPort", ⟨.never, true, .list, .untyped⟩, k!"couplingPorts", 648⟩]

/-- `src/armodel/models/M2/AUTOSARTemplates/SystemTemplate/Fibex/Fibex4Ethernet/ServiceInstances.py` -/
def createRows33 : List CreateRow := [
  ⟨k!"ConsumedServiceInstance", k!"createConsumedEventGroup", k!"ConsumedEventGroup", ⟨.never, true, .list, .untyped⟩, k!"consumedEventGroups", 497⟩,
  ⟨k!"ProvidedServiceInstance", k!"createEventHandler", k!"EventHandler", ⟨.never, true, .list, .untyped⟩, k!"eventHandlers", 936⟩,
  ⟨k!"ApplicationEndpoint", k!"createConsumedServiceInstance", k!"ConsumedServiceInstance", ⟨.never, true, .list, .untyped⟩, k!"consumedServiceInstances", 1163⟩,
  ⟨k!"ApplicationEndpoint", k!"createProvidedServiceInstance", k!"ProvidedServiceInstance", ⟨.never, true, .list, .untyped⟩, k!"providedServiceInstances", 1194⟩,
  ⟨k!"SocketAddress", k!"createApplicationEndpoint", k!"ApplicationEndpoint", ⟨.none, false, .field, .new⟩, k!"applicationEndpoint", 1286⟩,
  ⟨k!"SoAdConfig", k!"createSocketConnectionBundle", k!"SocketConnectionBundle", ⟨.none, false, .list, .new⟩, k!"connectionBundles", 1396⟩,
  ⟨k!"SoAdConfig", k!"createSocketAddress", k!"SocketAddress", ⟨.none, false, .list, .new⟩, k!"socketAddresses", 1408⟩]

/-- `src/armodel/models/M2/AUTOSARTemplates/SystemTemplate/Fibex/FibexCore/CoreCommunication.py` -/
def createRows34 : List CreateRow := [
  ⟨k!"Frame", k!"createPduToFrameMapping", k!"PduToFrameMapping", ⟨.untyped, true, .list, .typed⟩, k!"pduToFrameMappings", 123⟩,
  ⟨k!"NmPdu", k!"createISignalToIPduMapping", k!"ISignalToIPduMapping", ⟨.untyped, true, .list, .typed⟩, k!"iSignalToIPduMappings", 1001⟩,
  ⟨k!"ISignalIPdu", k!"createISignalToPduMappings", k!"ISignalToIPduMapping", ⟨.untyped, true, .list, .typed⟩, k!"iSignalToPduMappings", 1175⟩,
  ⟨k!"SecureCommunicationPropsSet", k!"createSecureCommunicationAuthenticationProps", k!"SecureCommunicationAuthenticationProps", ⟨.typed, true, .list, .typed⟩, k!"authenticationProps", 2050⟩,
  ⟨k!"SecureCommunicationPropsSet", k!"createSecureCommunicationFreshnessProps", k!"SecureCommunicationFreshnessProps", ⟨.typed, true, .list, .typed⟩, k!"freshnessProps", 2066⟩]

/-- `src/armodel/models/M2/AUTOSARTemplates/SystemTemplate/Fibex/FibexCore/CoreTopology.py` -/
def createRows35 : List CreateRow := [
  ⟨k!"PhysicalChannel", k!"createCanFrameTriggering", k!"CanFrameTriggering", ⟨.never, true, .list, .untyped⟩, k!"frameTriggerings", 152⟩,
  ⟨k!"PhysicalChannel", k!"createLinFrameTriggering", k!"LinFrameTriggering", ⟨.never, true, .list, .untyped⟩, k!"frameTriggerings", 159⟩,
  ⟨k!"PhysicalChannel", k!"createFlexrayFrameTriggering", k!"FlexrayFrameTriggering", ⟨.never, true, .list, .untyped⟩, k!"frameTriggerings", 166⟩,
  ⟨k!"PhysicalChannel", k!"createISignalTriggering", k!"ISignalTriggering", ⟨.never, true, .nowhere, .untyped⟩, k!"", 176⟩,
  ⟨k!"PhysicalChannel", k!"createPduTriggering", k!"PduTriggering", ⟨.never, true, .nowhere, .untyped⟩, k!"", 192⟩,
  ⟨k!"LinPhysicalChannel", k!"createLinScheduleTable", k!"LinScheduleTable", ⟨.never, true, .list, .untyped⟩, k!"scheduleTables", 261⟩,
  ⟨k!"EthernetPhysicalChannel", k!"createNetworkEndPoint", k!"NetworkEndpoint", ⟨.never, true, .list, .untyped⟩, k!"networkEndpoints", 321⟩,
  ⟨k!"EthernetPhysicalChannel", k!"createVlanConfig", k!"VlanConfig", ⟨.never, true, .field, .untyped⟩, k!"vlan", 338⟩,
  ⟨k!"CommunicationCluster", k!"createCanPhysicalChannel", k!"CanPhysicalChannel", ⟨.never, true, .list, .untyped⟩, k!"physicalChannel", 469⟩,
  ⟨k!"CommunicationCluster", k!"createLinPhysicalChannel", k!"LinPhysicalChannel", ⟨.never, true, .list, .untyped⟩, k!"physicalChannel", 479⟩,
  ⟨k!"CommunicationCluster", k!"createEthernetPhysicalChannel", k!"EthernetPhysicalChannel", ⟨.never, true, .list, .untyped⟩, k!"physicalChannel", 489⟩,
  ⟨k!"CommunicationCluster", k!"createFlexrayPhysicalChannel", k!"FlexrayPhysicalChannel", ⟨.never, true, .list, .untyped⟩, k!"physicalChannel", 499⟩,
  ⟨k!"CommunicationConnector", k!"createFramePort", k!"FramePort", ⟨.never, true, .list, .untyped⟩, k!"ecuCommPortInstances", 1040⟩,
  ⟨k!"CommunicationConnector", k!"createIPduPort", k!"IPduPort", ⟨.never, true, .list, .untyped⟩, k!"ecuCommPortInstances", 1047⟩,
  ⟨k!"CommunicationConnector", k!"createISignalPort", k!"ISignalPort", ⟨.never, true, .list, .untyped⟩, k!"ecuCommPortInstances", 1054⟩]

/-- `src/armodel/models/M2/AUTOSARTemplates/SystemTemplate/Fibex/FibexCore/EcuInstance.py` -/
def createRows36 : List CreateRow := [
  ⟨k!"EcuInstance", k!"createCanCommunicationController", k!"CanCommunicationController", ⟨.untyped, true, .nowhere, .untyped⟩, k!"", 176⟩,
  ⟨k!"EcuInstance", k!"createEthernetCommunicationController", k!"EthernetCommunicationController", ⟨.untyped, true, .nowhere, .untyped⟩, k!"", 182⟩,
  ⟨k!"EcuInstance", k!"createLinMaster", k!"LinMaster", ⟨.untyped, true, .nowhere, .untyped⟩, k!"", 188⟩,
  ⟨k!"EcuInstance", k!"createFlexrayCommunicationController", k!"FlexrayCommunicationController", ⟨.untyped, true, .nowhere, .untyped⟩, k!"", 194⟩,
  ⟨k!"EcuInstance", k!"createCanCommunicationConnector", k!"CanCommunicationConnector", ⟨.untyped, true, .nowhere, .untyped⟩, k!"", 203⟩,
  ⟨k!"EcuInstance", k!"createEthernetCommunicationConnector", k!"EthernetCommunicationConnector", ⟨.untyped, true, .nowhere, .untyped⟩, k!"", 209⟩,
  ⟨k!"EcuInstance", k!"createLinCommunicationConnector", k!"LinCommunicationConnector", ⟨.untyped, true, .nowhere, .untyped⟩, k!"", 215⟩,
  ⟨k!"EcuInstance", k!"createFlexrayCommunicationConnector", k!"FlexrayCommunicationConnector", ⟨.untyped, true, .nowhere, .untyped⟩, k!"", 221⟩]

/-- `src/armodel/models/M2/AUTOSARTemplates/SystemTemplate/NetworkManagement.py` -/
def createRows37 : List CreateRow := [
  ⟨k!"NmConfig", k!"createCanNmCluster", k!"CanNmCluster", ⟨.never, true, .nowhere, .untyped⟩, k!"", 985⟩,
  ⟨k!"NmConfig", k!"createUdpNmCluster", k!"UdpNmCluster", ⟨.never, true, .nowhere, .untyped⟩, k!"", 991⟩,
  ⟨k!"NmConfig", k!"createNmEcu", k!"NmEcu", ⟨.never, true, .list, .untyped⟩, k!"nmIfEcus", 1016⟩,
  ⟨k!"NmCluster", k!"createCanNmNode", k!"CanNmNode", ⟨.never, true, .list, .untyped⟩, k!"nmNodes", 1094⟩,
  ⟨k!"NmCluster", k!"readUdpNmNode", k!"UdpNmNode", ⟨.never, true, .list, .untyped⟩, k!"nmNodes", 1101⟩,
  ⟨k!"NmCluster", k!"createJ1939NmNode", k!"J1939NmNode", ⟨.never, true, .list, .untyped⟩, k!"nmNodes", 1108⟩]

/-- `src/armodel/models/M2/AUTOSARTemplates/SystemTemplate/Transformer/__init__.py` -/
def createRows38 : List CreateRow := [
  ⟨k!"DataTransformationSet", k!"createDataTransformation", k!"DataTransformation", ⟨.untyped, true, .list, .untyped⟩, k!"dataTransformations", 970⟩,
  ⟨k!"DataTransformationSet", k!"createTransformationTechnology", k!"TransformationTechnology", ⟨.untyped, true, .list, .untyped⟩, k!"transformationTechnologies", 980⟩]

/-- `src/armodel/models/M2/AUTOSARTemplates/SystemTemplate/TransportProtocols.py` -/
def createRows39 : List CreateRow := [
  ⟨k!"TpConnection", k!"createTpConnectionIdent", k!"TpConnectionIdent", ⟨.none, false, .field, .new⟩, k!"ident", 153⟩,
  ⟨k!"CanTpConfig", k!"createCanTpAddress", k!"CanTpAddress", ⟨.untyped, true, .list, .untyped⟩, k!"tpAddresses", 500⟩,
  ⟨k!"CanTpConfig", k!"createCanTpChannel", k!"CanTpChannel", ⟨.untyped, true, .list, .untyped⟩, k!"tpChannels", 510⟩,
  ⟨k!"CanTpConfig", k!"createCanTpNode", k!"CanTpNode", ⟨.untyped, true, .list, .untyped⟩, k!"tpNodes", 536⟩,
  ⟨k!"DoIpTpConfig", k!"createDoIpLogicAddress", k!"DoIpLogicAddress", ⟨.untyped, true, .list, .untyped⟩, k!"doIpLogicAddresses", 652⟩,
  ⟨k!"LinTpConfig", k!"createTpAddress", k!"TpAddress", ⟨.untyped, true, .list, .untyped⟩, k!"tpAddresses", 914⟩,
  ⟨k!"LinTpConfig", k!"createLinTpNode", k!"LinTpNode", ⟨.untyped, true, .list, .untyped⟩, k!"tpNodes", 932⟩]

/-- `src/armodel/models/M2/AUTOSARTemplates/SystemTemplate/__init__.py` -/
def createRows40 : List CreateRow := [
  ⟨k!"SystemMapping", k!"createECUMapping", k!"ECUMapping", ⟨.never, true, .list, .untyped⟩, k!"ecuResourceMappings", 259⟩,
  ⟨k!"SystemMapping", k!"createSwcToImplMapping", k!"SwcToImplMapping", ⟨.never, true, .list, .untyped⟩, k!"swImplMappings", 360⟩,
  ⟨k!"SystemMapping", k!"createSwcToEcuMapping", k!"SwcToEcuMapping", ⟨.never, true, .list, .untyped⟩, k!"swMappings", 373⟩,
  ⟨k!"System", k!"createSystemMapping", k!"SystemMapping", ⟨.untyped, true, .nowhere, .typed⟩, k!"", 600⟩,
  ⟨k!"System", k!"createRootSoftwareComposition", k!"RootSwCompositionPrototype", ⟨.never, true, .field, .untyped⟩, k!"rootSoftwareComposition", 623⟩]

/-- `src/armodel/models/M2/MSR/AsamHdo/SpecialData.py` -/
def createRows41 : List CreateRow := [
  ⟨k!"Sdg", k!"createSdgCaption", k!"SdgCaption", ⟨.none, false, .field, .new⟩, k!"sdgCaption", 327⟩]

/-- all create methods -/
def createTable : List CreateRow :=
  createRows00 ++ createRows01 ++ createRows02 ++ createRows03 ++ createRows04 ++ createRows05 ++ createRows06 ++ createRows07 ++ createRows08 ++ createRows09 ++ createRows10 ++ createRows11 ++ createRows12 ++ createRows13 ++ createRows14 ++ createRows15 ++ createRows16 ++ createRows17 ++ createRows18 ++ createRows19 ++ createRows20 ++ createRows21 ++ createRows22 ++ createRows23 ++ createRows24 ++ createRows25 ++ createRows26 ++ createRows27 ++ createRows28 ++ createRows29 ++ createRows30 ++ createRows31 ++ createRows32 ++ createRows33 ++ createRows34 ++ createRows35 ++ createRows36 ++ createRows37 ++ createRows38 ++ createRows39 ++ createRows40 ++ createRows41

end Verif.Gen
