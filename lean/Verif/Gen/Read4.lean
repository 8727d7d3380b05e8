import Verif.Gen.Read3
-- generated by tools/gen_codec.py; do not edit
namespace Verif.Gen.R
open Verif Verif.Model

/-- `readAssemblySwConnectorRequesterIRef`, `parser/arxml_parser.py:4845-4851` (the `RPortInCompositionInstanceRef` it makes) -/
def readAssemblySwConnectorRequesterIRef_RPortInCompositionInstanceRef : List RSlot :=
  [/- 4849 -/ { field := k!"timestamp", path := .nil, item := (.attr k!"T" .raw) },
   /- 4849 -/ { field := k!"uuid", path := .nil, item := (.attr k!"UUID" .raw) }] ++
  /- 4850 -/ readRPortInCompositionInstanceRef

/-- `readROperationIRef`, `parser/arxml_parser.py:3110-3117` -/
def readROperationIRef_OPERATION_IREF : List RSlot :=
  [/- 3117 -/ { field := k!"operationIRef", path := (.first [k!"OPERATION-IREF"] .nil), item := (.objs [(k!"OPERATION-IREF", k!"readROperationIRef_ROperationInAtomicSwcInstanceRef")]) }]

/-- `readSynchronousServerCallPoint`, `parser/arxml_parser.py:3135-3141` (the `SynchronousServerCallPoint` it makes); also `readAsynchronousServerCallPoint` -/
def readSynchronousServerCallPoint_SynchronousServerCallPoint : List RSlot :=
  [/- 3138 -/ { field := k!"short_name", path := (.first [k!"SHORT-NAME"] .nil), item := .name, req := .always }] ++
  /- 3139 -/ readIdentifiable ++
  [/- 3140 -/ { field := k!"timeout", path := (.first [k!"TIMEOUT"] .nil), item := (.prim .float) }] ++
  /- 3141 -/ readROperationIRef_OPERATION_IREF

/-- `readRTEEvent`, `parser/arxml_parser.py:3399-3405` -/
def readRTEEvent : List RSlot :=
  /- 3400 -/ readIdentifiable ++
  [/- 3401 -/ { field := k!"activationReasonRepresentationRef", path := (.first [k!"ACTIVATION-REASON-REPRESENTATION-REF"] .nil), item := (.prim .ref) },
   /- 3402 -/ { field := k!"startOnEventRef", path := (.first [k!"START-ON-EVENT-REF"] .nil), item := (.prim .ref) },
   /- 3405 -/ { field := k!"disabledModeIRefs", path := (.all k!"DISABLED-MODE-IREFS" (.all k!"DISABLED-MODE-IREF" .nil)), item := (.objs [(k!"DISABLED-MODE-IREF", k!"getRModeInAtomicSwcInstanceRef_RModeInAtomicSwcInstanceRef")]) }]

/-- `readDataSendCompletedEvent`, `parser/arxml_parser.py:3516-3519`; also `readAsynchronousServerCallReturnsEvent` -/
def readDataSendCompletedEvent : List RSlot :=
  /- 3518 -/ readRTEEvent ++
  [/- 3519 -/ { field := k!"eventSourceRef", path := (.first [k!"EVENT-SOURCE-REF"] .nil), item := (.prim .ref) }]

/-- `readInternalBehaviorConstantMemories`, `parser/arxml_parser.py:1344-1351` -/
def readInternalBehaviorConstantMemories : List RSlot :=
  [/- 1348 -/ { field := k!"constantMemories", path := (.all k!"CONSTANT-MEMORYS" (.all k!"PARAMETER-DATA-PROTOTYPE" .nil)), item := (.objs [(k!"PARAMETER-DATA-PROTOTYPE", k!"readNvBlockDescriptor_ParameterDataPrototype")]), elems := true, named := true, fresh := true },
   /- 1351 -/ { field := 0, path := (.all k!"CONSTANT-MEMORYS" (.all 0 .nil)), item := (.guard [k!"PARAMETER-DATA-PROTOTYPE"] .unsupported) }]

/-- `readExclusiveAreaNestingOrders`, `parser/arxml_parser.py:1372-1377` -/
def readExclusiveAreaNestingOrders : List RSlot :=
  [/- 1375 -/ { field := k!"exclusiveAreaNestingOrders", path := (.all k!"EXCLUSIVE-AREA-NESTING-ORDERS" (.all k!"EXCLUSIVE-AREA-NESTING-ORDER" .nil)), item := (.objs [(k!"EXCLUSIVE-AREA-NESTING-ORDER", k!"readExclusiveAreaNestingOrders_ExclusiveAreaNestingOrder")]), elems := true, named := true, fresh := true }]

/-- `readInternalBehaviorStaticMemories`, `parser/arxml_parser.py:1353-1360` -/
def readInternalBehaviorStaticMemories : List RSlot :=
  [/- 1357 -/ { field := k!"staticMemories", path := (.all k!"STATIC-MEMORYS" (.all k!"VARIABLE-DATA-PROTOTYPE" .nil)), item := (.objs [(k!"VARIABLE-DATA-PROTOTYPE", k!"readNvBlockDescriptor_VariableDataPrototype")]), elems := true, named := true, fresh := true },
   /- 1360 -/ { field := 0, path := (.all k!"STATIC-MEMORYS" (.all 0 .nil)), item := (.guard [k!"VARIABLE-DATA-PROTOTYPE"] .unsupported) }]

/-- `readInternalBehavior`, `parser/arxml_parser.py:1362-1370` -/
def readInternalBehavior : List RSlot :=
  /- 1363 -/ readIdentifiable ++
  /- 1364 -/ readInternalBehaviorConstantMemories ++
  [/- 1367 -/ { field := k!"exclusiveAreas", path := (.all k!"EXCLUSIVE-AREAS" (.all k!"EXCLUSIVE-AREA" .nil)), item := (.objs [(k!"EXCLUSIVE-AREA", k!"readInternalBehavior_ExclusiveArea")]), elems := true, named := true, fresh := true }] ++
  /- 1368 -/ readExclusiveAreaNestingOrders ++
  /- 1369 -/ readDataTypeMappingRefs ++
  /- 1370 -/ readInternalBehaviorStaticMemories

/-- `readSwcInternalBehaviorArTypedPerInstanceMemories`, `parser/arxml_parser.py:1989-1993` -/
def readSwcInternalBehaviorArTypedPerInstanceMemories : List RSlot :=
  [/- 1992 -/ { field := k!"arTypedPerInstanceMemories", path := (.all k!"AR-TYPED-PER-INSTANCE-MEMORYS" (.all k!"VARIABLE-DATA-PROTOTYPE" .nil)), item := (.objs [(k!"VARIABLE-DATA-PROTOTYPE", k!"readNvBlockDescriptor_VariableDataPrototype")]), elems := true, named := true }]

/-- `readSwcInternalBehaviorExclusiveAreaPolicies`, `parser/arxml_parser.py:2074-2079` -/
def readSwcInternalBehaviorExclusiveAreaPolicies : List RSlot :=
  [/- 2079 -/ { field := k!"exclusiveAreaPolicies", path := (.all k!"EXCLUSIVE-AREA-POLICYS" (.all k!"SWC-EXCLUSIVE-AREA-POLICY" .nil)), item := (.objs [(k!"SWC-EXCLUSIVE-AREA-POLICY", k!"readSwcInternalBehaviorExclusiveAreaPolicies_SwcExclusiveAreaPolicy")]) }]

/-- `readSwcInternalBehaviorEvents`, `parser/arxml_parser.py:3521-3555` -/
def readSwcInternalBehaviorEvents : List RSlot :=
  [/- 3525 -/ { field := k!"elements", path := (.all k!"EVENTS" (.all 0 .nil)), item := (.objs [(k!"TIMING-EVENT", k!"readSwcInternalBehaviorEvents_TimingEvent"), (k!"SWC-MODE-SWITCH-EVENT", k!"readSwcInternalBehaviorEvents_SwcModeSwitchEvent"), (k!"OPERATION-INVOKED-EVENT", k!"readSwcInternalBehaviorEvents_OperationInvokedEvent"), (k!"DATA-RECEIVED-EVENT", k!"readSwcInternalBehaviorEvents_DataReceivedEvent"), (k!"INTERNAL-TRIGGER-OCCURRED-EVENT", k!"readSwcInternalBehaviorEvents_InternalTriggerOccurredEvent"), (k!"INIT-EVENT", k!"readSwcInternalBehaviorEvents_InitEvent"), (k!"ASYNCHRONOUS-SERVER-CALL-RETURNS-EVENT", k!"readSwcInternalBehaviorEvents_AsynchronousServerCallReturnsEvent"), (k!"MODE-SWITCHED-ACK-EVENT", k!"readSwcInternalBehaviorEvents_ModeSwitchedAckEvent"), (k!"BACKGROUND-EVENT", k!"readSwcInternalBehaviorEvents_BackgroundEvent"), (k!"DATA-SEND-COMPLETED-EVENT", k!"readSwcInternalBehaviorEvents_DataSendCompletedEvent")]), elems := true, named := true },
   /- 3555 -/ { field := 0, path := (.all k!"EVENTS" (.all 0 .nil)), item := (.guard [k!"TIMING-EVENT", k!"SWC-MODE-SWITCH-EVENT", k!"OPERATION-INVOKED-EVENT", k!"DATA-RECEIVED-EVENT", k!"INTERNAL-TRIGGER-OCCURRED-EVENT", k!"INIT-EVENT", k!"ASYNCHRONOUS-SERVER-CALL-RETURNS-EVENT", k!"MODE-SWITCHED-ACK-EVENT", k!"BACKGROUND-EVENT", k!"DATA-SEND-COMPLETED-EVENT"] .unsupported) }]

/-- `readSwcInternalBehaviorExplicitInterRunnableVariables`, `parser/arxml_parser.py:3425-3429` -/
def readSwcInternalBehaviorExplicitInterRunnableVariables : List RSlot :=
  [/- 3428 -/ { field := k!"explicitInterRunnableVariables", path := (.all k!"EXPLICIT-INTER-RUNNABLE-VARIABLES" (.all k!"VARIABLE-DATA-PROTOTYPE" .nil)), item := (.objs [(k!"VARIABLE-DATA-PROTOTYPE", k!"readNvBlockDescriptor_VariableDataPrototype")]), elems := true, named := true }]

/-- `readSwcInternalBehaviorIncludedModeDeclarationGroupSets`, `parser/arxml_parser.py:2064-2072` -/
def readSwcInternalBehaviorIncludedModeDeclarationGroupSets : List RSlot :=
  [/- 2070 -/ { field := k!"includedModeDeclarationGroupSets", path := (.all k!"INCLUDED-MODE-DECLARATION-GROUP-SETS" (.all k!"INCLUDED-MODE-DECLARATION-GROUP-SET" .nil)), item := (.objs [(k!"INCLUDED-MODE-DECLARATION-GROUP-SET", k!"readSwcInternalBehaviorIncludedModeDeclarationGroupSets_IncludedModeDeclarationGroupSet")]) },
   /- 2072 -/ { field := 0, path := (.all k!"INCLUDED-MODE-DECLARATION-GROUP-SETS" (.all 0 .nil)), item := (.guard [k!"INCLUDED-MODE-DECLARATION-GROUP-SET"] .unsupported) }]

/-- `readSwcInternalBehaviorInstantiationDataDefProps`, `parser/arxml_parser.py:2102-2109` -/
def readSwcInternalBehaviorInstantiationDataDefProps : List RSlot :=
  [/- 2109 -/ { field := k!"instantiationDataDefProps", path := (.all k!"INSTANTIATION-DATA-DEF-PROPSS" (.all k!"INSTANTIATION-DATA-DEF-PROPS" .nil)), item := (.objs [(k!"INSTANTIATION-DATA-DEF-PROPS", k!"readNvBlockDescriptor_InstantiationDataDefProps")]) }]

/-- `readSwcInternalBehaviorPerInstanceMemories`, `parser/arxml_parser.py:3431-3439` -/
def readSwcInternalBehaviorPerInstanceMemories : List RSlot :=
  [/- 3434 -/ { field := k!"perInstanceMemories", path := (.all k!"PER-INSTANCE-MEMORYS" (.all k!"PER-INSTANCE-MEMORY" .nil)), item := (.objs [(k!"PER-INSTANCE-MEMORY", k!"readSwcInternalBehaviorPerInstanceMemories_PerInstanceMemory")]), elems := true, named := true }]

/-- `readSwcInternalBehaviorPerInstanceParameters`, `parser/arxml_parser.py:3449-3453` -/
def readSwcInternalBehaviorPerInstanceParameters : List RSlot :=
  [/- 3452 -/ { field := k!"perInstanceParameters", path := (.all k!"PER-INSTANCE-PARAMETERS" (.all k!"PARAMETER-DATA-PROTOTYPE" .nil)), item := (.objs [(k!"PARAMETER-DATA-PROTOTYPE", k!"readNvBlockDescriptor_ParameterDataPrototype")]), elems := true, named := true }]

/-- `readSwcInternalBehaviorPortAPIOptions`, `parser/arxml_parser.py:3463-3472` -/
def readSwcInternalBehaviorPortAPIOptions : List RSlot :=
  [/- 3472 -/ { field := k!"portAPIOptions", path := (.all k!"PORT-API-OPTIONS" (.all k!"PORT-API-OPTION" .nil)), item := (.objs [(k!"PORT-API-OPTION", k!"readSwcInternalBehaviorPortAPIOptions_PortAPIOption")]) }]

/-- `readSwcInternalBehaviorRunnables`, `parser/arxml_parser.py:3375-3382` -/
def readSwcInternalBehaviorRunnables : List RSlot :=
  [/- 3379 -/ { field := k!"elements", path := (.all k!"RUNNABLES" (.all k!"RUNNABLE-ENTITY" .nil)), item := (.objs [(k!"RUNNABLE-ENTITY", k!"readSwcInternalBehaviorRunnables_RunnableEntity")]), elems := true, named := true },
   /- 3382 -/ { field := 0, path := (.all k!"RUNNABLES" (.all 0 .nil)), item := (.guard [k!"RUNNABLE-ENTITY"] .unsupported) }]

/-- `readSwcServiceDependency`, `parser/arxml_parser.py:1960-1968` -/
def readSwcServiceDependency : List RSlot :=
  [/- 1962 -/ { field := k!"elements", path := .nil, item := (.objs [(k!"SWC-SERVICE-DEPENDENCY", k!"readSwcServiceDependency_SwcServiceDependency")]), elems := true, named := true }]

/-- `readSwcInternalBehaviorServiceDependencies`, `parser/arxml_parser.py:1970-1976` -/
def readSwcInternalBehaviorServiceDependencies : List RSlot :=
  /- 1974 -/ via (.all k!"SERVICE-DEPENDENCYS" (.all k!"SWC-SERVICE-DEPENDENCY" .nil)) readSwcServiceDependency ++
  [/- 1976 -/ { field := 0, path := (.all k!"SERVICE-DEPENDENCYS" (.all 0 .nil)), item := (.guard [k!"SWC-SERVICE-DEPENDENCY"] .unsupported) }]

/-- `readSwcInternalBehaviorSharedParameters`, `parser/arxml_parser.py:1995-1999` -/
def readSwcInternalBehaviorSharedParameters : List RSlot :=
  [/- 1998 -/ { field := k!"sharedParameters", path := (.all k!"SHARED-PARAMETERS" (.all k!"PARAMETER-DATA-PROTOTYPE" .nil)), item := (.objs [(k!"PARAMETER-DATA-PROTOTYPE", k!"readNvBlockDescriptor_ParameterDataPrototype")]), elems := true, named := true }]

/-- `readSwcInternalBehaviorVariationPointProxies`, `parser/arxml_parser.py:2052-2057` -/
def readSwcInternalBehaviorVariationPointProxies : List RSlot :=
  [/- 2057 -/ { field := k!"variationPointProxies", path := (.all k!"VARIATION-POINT-PROXYS" (.all k!"VARIATION-POINT-PROXY" .nil)), item := (.objs [(k!"VARIATION-POINT-PROXY", k!"readSwcInternalBehaviorVariationPointProxies_VariationPointProxy")]) }]

/-- `readSwcInternalBehavior`, `parser/arxml_parser.py:2081-2100` -/
def readSwcInternalBehavior : List RSlot :=
  /- 2083 -/ readInternalBehavior ++
  /- 2086 -/ readSwcInternalBehaviorArTypedPerInstanceMemories ++
  /- 2087 -/ readSwcInternalBehaviorExclusiveAreaPolicies ++
  /- 2088 -/ readSwcInternalBehaviorEvents ++
  /- 2089 -/ readSwcInternalBehaviorExplicitInterRunnableVariables ++
  [/- 2090 -/ { field := k!"handleTerminationAndRestart", path := (.first [k!"HANDLE-TERMINATION-AND-RESTART"] .nil), item := (.prim .lit) }] ++
  /- 2091 -/ readSwcInternalBehaviorIncludedModeDeclarationGroupSets ++
  /- 2092 -/ readSwcInternalBehaviorInstantiationDataDefProps ++
  /- 2093 -/ readSwcInternalBehaviorPerInstanceMemories ++
  /- 2094 -/ readSwcInternalBehaviorPerInstanceParameters ++
  /- 2095 -/ readSwcInternalBehaviorPortAPIOptions ++
  /- 2096 -/ readSwcInternalBehaviorRunnables ++
  /- 2097 -/ readSwcInternalBehaviorServiceDependencies ++
  /- 2098 -/ readSwcInternalBehaviorSharedParameters ++
  /- 2099 -/ readSwcInternalBehaviorVariationPointProxies ++
  [/- 2100 -/ { field := k!"supportsMultipleInstantiation", path := (.first [k!"SUPPORTS-MULTIPLE-INSTANTIATION"] .nil), item := (.prim .boolean) }]

/-- `readAtomicSwComponentTypeSwcInternalBehavior`, `parser/arxml_parser.py:2111-2118` (the `SwcInternalBehavior` it makes) -/
def readAtomicSwComponentTypeSwcInternalBehavior_SwcInternalBehavior : List RSlot :=
  [/- 2115 -/ { field := k!"short_name", path := (.first [k!"SHORT-NAME"] .nil), item := .name, req := .always }] ++
  /- 2116 -/ readSwcInternalBehavior

/-- `readSymbolProps`, `parser/arxml_parser.py:5567-5568` -/
def readSymbolProps : List RSlot :=
  /- 5568 -/ readImplementationProps

/-- `readAtomicSwComponentTypeSymbolProps`, `parser/arxml_parser.py:4756-4760` (the `SymbolProps` it makes); also `readImplementationDataTypeSymbolProps` -/
def readAtomicSwComponentTypeSymbolProps_SymbolProps : List RSlot :=
  [/- 4759 -/ { field := k!"short_name", path := (.first [k!"SHORT-NAME"] .nil), item := .name, req := .always }] ++
  /- 4760 -/ readSymbolProps

/-- `readAttributeValueVariationPoint`, `parser/arxml_parser.py:2020-2050` -/
def readAttributeValueVariationPoint_FloatValueVariationPoint : List RSlot :=
  [/- 2021 -/ { field := k!"timestamp", path := .nil, item := (.attr k!"T" .raw) },
   /- 2021 -/ { field := k!"uuid", path := .nil, item := (.attr k!"UUID" .raw) },
   /- 2029 -/ { field := k!"bindingTime", path := .nil, item := (.attr k!"BINDING-TIME" (.mapped .bindingTime)) },
   /- 2033 -/ { field := k!"blueprintValue", path := .nil, item := (.attr k!"BLUEPRINT-VALUE" .lit) },
   /- 2035 -/ { field := k!"sd", path := .nil, item := (.attr k!"SD" .lit) },
   /- 2037 -/ { field := k!"shortLabel", path := .nil, item := (.attr k!"SHORT-LABEL" .lit) },
   /- 2049 -/ { field := k!"_text", path := .nil, item := (.prim .rawNonblank) }]

/-- `readAttributeValueVariationPoint`, `parser/arxml_parser.py:2020-2050` -/
def readAttributeValueVariationPoint_LimitValueVariationPoint : List RSlot :=
  [/- 2021 -/ { field := k!"timestamp", path := .nil, item := (.attr k!"T" .raw) },
   /- 2021 -/ { field := k!"uuid", path := .nil, item := (.attr k!"UUID" .raw) },
   /- 2029 -/ { field := k!"bindingTime", path := .nil, item := (.attr k!"BINDING-TIME" (.mapped .bindingTime)) },
   /- 2033 -/ { field := k!"blueprintValue", path := .nil, item := (.attr k!"BLUEPRINT-VALUE" .lit) },
   /- 2035 -/ { field := k!"sd", path := .nil, item := (.attr k!"SD" .lit) },
   /- 2037 -/ { field := k!"shortLabel", path := .nil, item := (.attr k!"SHORT-LABEL" .lit) },
   /- 2045 -/ { field := k!"intervalType", path := .nil, item := (.attr k!"INTERVAL-TYPE" (.mapped .intervalType)) },
   /- 2049 -/ { field := k!"_text", path := .nil, item := (.prim .rawNonblank) }]

/-- `readInitEvent`, `parser/arxml_parser.py:3498-3500`; also `readBackgroundEvent` -/
def readInitEvent : List RSlot :=
  /- 3500 -/ readRTEEvent

/-- `readBlueprintGenerator`, `parser/arxml_parser.py:801-807` -/
def readBlueprintGenerator : List RSlot :=
  [/- 802 -/ { field := k!"timestamp", path := .nil, item := (.attr k!"T" .raw) },
   /- 802 -/ { field := k!"uuid", path := .nil, item := (.attr k!"UUID" .raw) },
   /- 803 -/ { field := k!"introduction", path := (.first [k!"INTRODUCTION"] .nil), item := (.objs [(k!"INTRODUCTION", k!"getDocumentationBlock_DocumentationBlock")]) },
   /- 806 -/ { field := k!"expression", path := (.first [k!"EXPRESSION"] .nil), item := (.prim .litPlain) }]

/-- `readBswApiOptions`, `parser/arxml_parser.py:2270-2272` -/
def readBswApiOptions : List RSlot :=
  [/- 2271 -/ { field := k!"timestamp", path := .nil, item := (.attr k!"T" .raw) },
   /- 2271 -/ { field := k!"uuid", path := .nil, item := (.attr k!"UUID" .raw) },
   /- 2272 -/ { field := k!"enableTakeAddress", path := (.first [k!"ENABLE-TAKE-ADDRESS"] .nil), item := (.prim .boolean) }]

/-- `readBswSynchronousServerCallPoint`, `parser/arxml_parser.py:2166-2168`; also `readBswAsynchronousServerCallPoint` -/
def readBswSynchronousServerCallPoint : List RSlot :=
  /- 2167 -/ readHwType ++
  [/- 2168 -/ { field := k!"calledEntryRef", path := (.first [k!"CALLED-ENTRY-REF"] .nil), item := (.prim .ref) }]

/-- `readBswEvent`, `parser/arxml_parser.py:1259-1265` -/
def readBswEvent : List RSlot :=
  [/- 1260 -/ { field := k!"activationReasonRepresentationRef", path := (.first [k!"ACTIVATION-REASON-REPRESENTATION-REF"] .nil), item := (.prim .ref) },
   /- 1262 -/ { field := k!"contextLimitationRefs", path := (.all k!"CONTEXT-LIMITATION-REFS" (.all k!"CONTEXT-LIMITATION-REF" .nil)), item := (.prim .ref) },
   /- 1264 -/ { field := k!"disabledInModeIRefs", path := (.all k!"DISABLED-IN-MODE-IREFS" (.all k!"DISABLED-IN-MODE-IREF" .nil)), item := (.objs [(k!"DISABLED-IN-MODE-IREF", k!"getModeInBswModuleDescriptionInstanceRef_ModeInBswModuleDescriptionInstanceRef")]) },
   /- 1265 -/ { field := k!"startsOnEventRef", path := (.first [k!"STARTS-ON-EVENT-REF"] .nil), item := (.prim .ref) }]

/-- `readBswScheduleEvent`, `parser/arxml_parser.py:1267-1268` -/
def readBswScheduleEvent : List RSlot :=
  /- 1268 -/ readBswEvent

/-- `readBswAsynchronousServerCallReturnsEvent`, `parser/arxml_parser.py:1288-1290` -/
def readBswAsynchronousServerCallReturnsEvent : List RSlot :=
  /- 1289 -/ readBswScheduleEvent ++
  [/- 1290 -/ { field := k!"eventSourceRef", path := (.first [k!"EVENT-SOURCE-REF"] .nil), item := (.prim .ref) }]

/-- `readBswBackgroundEvent`, `parser/arxml_parser.py:2223-2224` -/
def readBswBackgroundEvent : List RSlot :=
  /- 2224 -/ readBswScheduleEvent

/-- `readCanEnterRefs`, `parser/arxml_parser.py:1224-1226` -/
def readCanEnterRefs : List RSlot :=
  [/- 1226 -/ { field := k!"canEnterRefs", path := (.all k!"CAN-ENTER-EXCLUSIVE-AREA-REFS" (.all k!"CAN-ENTER-EXCLUSIVE-AREA-REF" .nil)), item := (.prim .ref) }]

/-- `readExclusiveAreaNestingOrderRefs`, `parser/arxml_parser.py:1228-1230` -/
def readExclusiveAreaNestingOrderRefs : List RSlot :=
  [/- 1230 -/ { field := k!"exclusiveAreaNestingOrderRefs", path := (.all k!"EXCLUSIVE-AREA-NESTING-ORDER-REFS" (.all k!"EXCLUSIVE-AREA-NESTING-ORDER-REF" .nil)), item := (.prim .ref) }]

/-- `readRunsInsideRefs`, `parser/arxml_parser.py:1232-1234` -/
def readRunsInsideRefs : List RSlot :=
  [/- 1234 -/ { field := k!"runsInsideRefs", path := (.all k!"RUNS-INSIDE-EXCLUSIVE-AREA-REFS" (.all k!"RUNS-INSIDE-EXCLUSIVE-AREA-REF" .nil)), item := (.prim .ref) }]

/-- `readExecutableEntity`, `parser/arxml_parser.py:1236-1245` -/
def readExecutableEntity : List RSlot :=
  /- 1238 -/ readIdentifiable ++
  /- 1239 -/ readActivationReasons ++
  /- 1240 -/ readCanEnterRefs ++
  /- 1241 -/ readExclusiveAreaNestingOrderRefs ++
  [/- 1242 -/ { field := k!"minimumStartInterval", path := (.first [k!"MINIMUM-START-INTERVAL"] .nil), item := (.prim .time) },
   /- 1243 -/ { field := k!"reentrancyLevel", path := (.first [k!"REENTRANCY-LEVEL"] .nil), item := (.prim .lit) }] ++
  /- 1244 -/ readRunsInsideRefs ++
  [/- 1245 -/ { field := k!"swAddrMethodRef", path := (.first [k!"SW-ADDR-METHOD-REF"] .nil), item := (.prim .ref) }]

/-- `readBswModuleEntityActivationPointRefs`, `parser/arxml_parser.py:2155-2157` -/
def readBswModuleEntityActivationPointRefs : List RSlot :=
  [/- 2157 -/ { field := k!"activationPointRefs", path := (.all k!"ACTIVATION-POINTS" (.all k!"BSW-INTERNAL-TRIGGERING-POINT-REF-CONDITIONAL" (.all k!"BSW-INTERNAL-TRIGGERING-POINT-REF" .nil))), item := (.prim .ref) }]

/-- `readBswModuleEntityCallPoints`, `parser/arxml_parser.py:2170-2180` -/
def readBswModuleEntityCallPoints : List RSlot :=
  [/- 2174 -/ { field := k!"callPoints", path := (.all k!"CALL-POINTS" (.all 0 .nil)), item := (.objs [(k!"BSW-ASYNCHRONOUS-SERVER-CALL-POINT", k!"readBswModuleEntityCallPoints_BswAsynchronousServerCallPoint"), (k!"BSW-SYNCHRONOUS-SERVER-CALL-POINT", k!"readBswModuleEntityCallPoints_BswSynchronousServerCallPoint")]), elems := true, named := true },
   /- 2180 -/ { field := 0, path := (.all k!"CALL-POINTS" (.all 0 .nil)), item := (.guard [k!"BSW-ASYNCHRONOUS-SERVER-CALL-POINT", k!"BSW-SYNCHRONOUS-SERVER-CALL-POINT"] .unsupported) }]

/-- `readBswModuleEntityDataReceiverPoints`, `parser/arxml_parser.py:2142-2149` -/
def readBswModuleEntityDataReceiverPoints : List RSlot :=
  [/- 2146 -/ { field := k!"dataReceivePoints", path := (.all k!"DATA-RECEIVE-POINTS" (.all k!"BSW-VARIABLE-ACCESS" .nil)), item := (.objs [(k!"BSW-VARIABLE-ACCESS", k!"readBswModuleEntityDataSendPoints_BswVariableAccess")]), elems := true, named := true },
   /- 2149 -/ { field := 0, path := (.all k!"DATA-RECEIVE-POINTS" (.all 0 .nil)), item := (.guard [k!"BSW-VARIABLE-ACCESS"] .unsupported) }]

/-- `readBswModuleEntityDataSendPoints`, `parser/arxml_parser.py:2133-2140` -/
def readBswModuleEntityDataSendPoints : List RSlot :=
  [/- 2137 -/ { field := k!"dataSendPoints", path := (.all k!"DATA-SEND-POINTS" (.all k!"BSW-VARIABLE-ACCESS" .nil)), item := (.objs [(k!"BSW-VARIABLE-ACCESS", k!"readBswModuleEntityDataSendPoints_BswVariableAccess")]), elems := true, named := true },
   /- 2140 -/ { field := 0, path := (.all k!"DATA-SEND-POINTS" (.all 0 .nil)), item := (.guard [k!"BSW-VARIABLE-ACCESS"] .unsupported) }]

/-- `readBswModuleEntityAccessedModeGroups`, `parser/arxml_parser.py:1253-1257` -/
def readBswModuleEntityAccessedModeGroups : List RSlot :=
  [/- 1257 -/ { field := k!"accessedModeGroupRefs", path := (.all k!"ACCESSED-MODE-GROUPS" (.all k!"MODE-DECLARATION-GROUP-PROTOTYPE-REF-CONDITIONAL" (.first [k!"MODE-DECLARATION-GROUP-PROTOTYPE-REF"] .nil))), item := (.prim .ref) }]

/-- `readBswModuleEntityManagedModeGroups`, `parser/arxml_parser.py:1247-1251` -/
def readBswModuleEntityManagedModeGroups : List RSlot :=
  [/- 1251 -/ { field := k!"managedModeGroupRefs", path := (.all k!"MANAGED-MODE-GROUPS" (.all k!"MODE-DECLARATION-GROUP-PROTOTYPE-REF-CONDITIONAL" (.first [k!"MODE-DECLARATION-GROUP-PROTOTYPE-REF"] .nil))), item := (.prim .ref) }]

/-- `readBswModuleEntityIssuedTriggerRefs`, `parser/arxml_parser.py:2151-2153` -/
def readBswModuleEntityIssuedTriggerRefs : List RSlot :=
  [/- 2153 -/ { field := k!"issuedTriggerRefs", path := (.all k!"ISSUED-TRIGGERS" (.all k!"TRIGGER-REF-CONDITIONAL" (.all k!"TRIGGER-REF" .nil))), item := (.prim .ref) }]

/-- `readBswModuleEntity`, `parser/arxml_parser.py:2182-2192` -/
def readBswModuleEntity : List RSlot :=
  /- 2183 -/ readExecutableEntity ++
  /- 2184 -/ readBswModuleEntityActivationPointRefs ++
  /- 2185 -/ readBswModuleEntityCallPoints ++
  /- 2186 -/ readBswModuleEntityDataReceiverPoints ++
  /- 2187 -/ readBswModuleEntityDataSendPoints ++
  [/- 2188 -/ { field := k!"implementedEntryRef", path := (.first [k!"IMPLEMENTED-ENTRY-REF"] .nil), item := (.prim .ref), req := .strict },
   /- 2189 -/ { field := k!"schedulerNamePrefixRef", path := (.first [k!"SCHEDULER-NAME-PREFIX-REF"] .nil), item := (.prim .ref) }] ++
  /- 2190 -/ readBswModuleEntityAccessedModeGroups ++
  /- 2191 -/ readBswModuleEntityManagedModeGroups ++
  /- 2192 -/ readBswModuleEntityIssuedTriggerRefs

/-- `readBswCalledEntity`, `parser/arxml_parser.py:2194-2196`; also `readBswSchedulableEntity` -/
def readBswCalledEntity : List RSlot :=
  /- 2196 -/ readBswModuleEntity

/-- `readBswDataReceivedEvent`, `parser/arxml_parser.py:1302-1306` -/
def readBswDataReceivedEvent : List RSlot :=
  /- 1305 -/ readBswScheduleEvent ++
  [/- 1306 -/ { field := k!"dataRef", path := (.first [k!"DATA-REF"] .nil), item := (.prim .ref) }]

/-- `readBswDataReceptionPolicy`, `parser/arxml_parser.py:2274-2276` -/
def readBswDataReceptionPolicy : List RSlot :=
  /- 2275 -/ readBswApiOptions ++
  [/- 2276 -/ { field := k!"receivedDataRef", path := (.first [k!"RECEIVED-DATA-REF"] .nil), item := (.prim .ref) }]

/-- `readBswExternalTriggerOccurredEvent`, `parser/arxml_parser.py:2226-2228` -/
def readBswExternalTriggerOccurredEvent : List RSlot :=
  /- 2227 -/ readBswScheduleEvent ++
  [/- 2228 -/ { field := k!"triggerRef", path := (.first [k!"TRIGGER-REF"] .nil), item := (.prim .ref) }]

/-- `readBswInternalBehaviorInternalTriggeringPoints`, `parser/arxml_parser.py:2295-2302` -/
def readBswInternalBehaviorInternalTriggeringPoints : List RSlot :=
  [/- 2299 -/ { field := k!"internalTriggeringPoints", path := (.all k!"INTERNAL-TRIGGERING-POINTS" (.all k!"BSW-INTERNAL-TRIGGERING-POINT" .nil)), item := (.objs [(k!"BSW-INTERNAL-TRIGGERING-POINT", k!"readBswInternalBehaviorInternalTriggeringPoints_BswInternalTriggeringPoint")]), elems := true, named := true },
   /- 2302 -/ { field := 0, path := (.all k!"INTERNAL-TRIGGERING-POINTS" (.all 0 .nil)), item := (.guard [k!"BSW-INTERNAL-TRIGGERING-POINT"] .unsupported) }]

/-- `readBswInternalBehaviorEntities`, `parser/arxml_parser.py:2208-2221` -/
def readBswInternalBehaviorEntities : List RSlot :=
  [/- 2212 -/ { field := k!"entities", path := (.all k!"ENTITYS" (.all 0 .nil)), item := (.objs [(k!"BSW-CALLED-ENTITY", k!"readBswInternalBehaviorEntities_BswCalledEntity"), (k!"BSW-SCHEDULABLE-ENTITY", k!"readBswInternalBehaviorEntities_BswSchedulableEntity"), (k!"BSW-INTERRUPT-ENTITY", k!"readBswInternalBehaviorEntities_BswInterruptEntity")]), elems := true, named := true },
   /- 2221 -/ { field := 0, path := (.all k!"ENTITYS" (.all 0 .nil)), item := (.guard [k!"BSW-CALLED-ENTITY", k!"BSW-SCHEDULABLE-ENTITY", k!"BSW-INTERRUPT-ENTITY"] .unsupported) }]

/-- `readBswInternalBehaviorEvents`, `parser/arxml_parser.py:2234-2268` -/
def readBswInternalBehaviorEvents : List RSlot :=
  [/- 2238 -/ { field := k!"events", path := (.all k!"EVENTS" (.all 0 .nil)), item := (.objs [(k!"BSW-MODE-SWITCH-EVENT", k!"readBswInternalBehaviorEvents_BswModeSwitchEvent"), (k!"BSW-MODE-MANAGER-ERROR-EVENT", k!"readBswInternalBehaviorEvents_BswModeManagerErrorEvent"), (k!"BSW-MODE-SWITCHED-ACK-EVENT", k!"readBswInternalBehaviorEvents_BswModeSwitchedAckEvent"), (k!"BSW-TIMING-EVENT", k!"readBswInternalBehaviorEvents_BswTimingEvent"), (k!"BSW-DATA-RECEIVED-EVENT", k!"readBswInternalBehaviorEvents_BswDataReceivedEvent"), (k!"BSW-INTERNAL-TRIGGER-OCCURRED-EVENT", k!"readBswInternalBehaviorEvents_BswInternalTriggerOccurredEvent"), (k!"BSW-BACKGROUND-EVENT", k!"readBswInternalBehaviorEvents_BswBackgroundEvent"), (k!"BSW-EXTERNAL-TRIGGER-OCCURRED-EVENT", k!"readBswInternalBehaviorEvents_BswExternalTriggerOccurredEvent"), (k!"BSW-OPERATION-INVOKED-EVENT", k!"readBswInternalBehaviorEvents_BswOperationInvokedEvent"), (k!"BSW-ASYNCHRONOUS-SERVER-CALL-RETURNS-EVENT", k!"readBswInternalBehaviorEvents_BswAsynchronousServerCallReturnsEvent")]), elems := true, named := true },
   /- 2268 -/ { field := 0, path := (.all k!"EVENTS" (.all 0 .nil)), item := (.guard [k!"BSW-MODE-SWITCH-EVENT", k!"BSW-MODE-MANAGER-ERROR-EVENT", k!"BSW-MODE-SWITCHED-ACK-EVENT", k!"BSW-TIMING-EVENT", k!"BSW-DATA-RECEIVED-EVENT", k!"BSW-INTERNAL-TRIGGER-OCCURRED-EVENT", k!"BSW-BACKGROUND-EVENT", k!"BSW-EXTERNAL-TRIGGER-OCCURRED-EVENT", k!"BSW-OPERATION-INVOKED-EVENT", k!"BSW-ASYNCHRONOUS-SERVER-CALL-RETURNS-EVENT"] .unsupported) }]

/-- `readBswInternalBehaviorModeSenderPolicy`, `parser/arxml_parser.py:1330-1336` -/
def readBswInternalBehaviorModeSenderPolicy : List RSlot :=
  [/- 1334 -/ { field := k!"modeSenderPolicies", path := (.all k!"MODE-SENDER-POLICYS" (.all k!"BSW-MODE-SENDER-POLICY" .nil)), item := (.objs [(k!"BSW-MODE-SENDER-POLICY", k!"getBswModeSenderPolicy_BswModeSenderPolicy")]) },
   /- 1336 -/ { field := 0, path := (.all k!"MODE-SENDER-POLICYS" (.all 0 .nil)), item := (.guard [k!"BSW-MODE-SENDER-POLICY"] .invalid) }]

/-- `readBswInternalBehaviorReceptionPolicies`, `parser/arxml_parser.py:2282-2290` -/
def readBswInternalBehaviorReceptionPolicies : List RSlot :=
  [/- 2288 -/ { field := k!"receptionPolicies", path := (.all k!"RECEPTION-POLICYS" (.all k!"BSW-QUEUED-DATA-RECEPTION-POLICY" .nil)), item := (.objs [(k!"BSW-QUEUED-DATA-RECEPTION-POLICY", k!"readBswInternalBehaviorReceptionPolicies_BswQueuedDataReceptionPolicy")]) },
   /- 2290 -/ { field := 0, path := (.all k!"RECEPTION-POLICYS" (.all 0 .nil)), item := (.guard [k!"BSW-QUEUED-DATA-RECEPTION-POLICY"] .unsupported) }]

/-- `readBswInternalBehaviorServiceDependencies`, `parser/arxml_parser.py:2304-2312` -/
def readBswInternalBehaviorServiceDependencies : List RSlot :=
  [/- 2310 -/ { field := k!"serviceDependencies", path := (.all k!"SERVICE-DEPENDENCYS" (.all k!"BSW-SERVICE-DEPENDENCY" .nil)), item := (.objs [(k!"BSW-SERVICE-DEPENDENCY", k!"readBswInternalBehaviorServiceDependencies_BswServiceDependency")]) },
   /- 2312 -/ { field := 0, path := (.all k!"SERVICE-DEPENDENCYS" (.all 0 .nil)), item := (.guard [k!"BSW-SERVICE-DEPENDENCY"] .unsupported) }]

/-- `readBswInternalBehavior`, `parser/arxml_parser.py:2314-2326` -/
def readBswInternalBehavior : List RSlot :=
  /- 2318 -/ readInternalBehavior ++
  /- 2319 -/ readBswInternalBehaviorInternalTriggeringPoints ++
  /- 2320 -/ readBswInternalBehaviorEntities ++
  /- 2321 -/ readBswInternalBehaviorEvents ++
  /- 2322 -/ readBswInternalBehaviorModeSenderPolicy ++
  [/- 2324 -/ { field := k!"includedModeDeclarationGroupSets", path := (.all k!"INCLUDED-MODE-DECLARATION-GROUP-SETS" (.all k!"INCLUDED-MODE-DECLARATION-GROUP-SET" .nil)), item := (.objs [(k!"INCLUDED-MODE-DECLARATION-GROUP-SET", k!"getIncludedModeDeclarationGroupSets_IncludedModeDeclarationGroupSet")]) }] ++
  /- 2325 -/ readBswInternalBehaviorReceptionPolicies ++
  /- 2326 -/ readBswInternalBehaviorServiceDependencies

/-- `readBswInternalBehaviorEntities`, `parser/arxml_parser.py:2208-2221` (the `BswCalledEntity` it makes) -/
def readBswInternalBehaviorEntities_BswCalledEntity : List RSlot :=
  [/- 2212 -/ { field := k!"short_name", path := (.first [k!"SHORT-NAME"] .nil), item := .name, req := .always }] ++
  /- 2213 -/ readBswCalledEntity

/-- `readBswInterruptEntity`, `parser/arxml_parser.py:2202-2206` -/
def readBswInterruptEntity : List RSlot :=
  /- 2204 -/ readBswModuleEntity ++
  [/- 2205 -/ { field := k!"interruptCategory", path := (.first [k!"INTERRUPT-CATEGORY"] .nil), item := (.prim .lit) },
   /- 2206 -/ { field := k!"interruptSource", path := (.first [k!"INTERRUPT-SOURCE"] .nil), item := (.prim .lit) }]

/-- `readBswInternalBehaviorEntities`, `parser/arxml_parser.py:2208-2221` (the `BswInterruptEntity` it makes) -/
def readBswInternalBehaviorEntities_BswInterruptEntity : List RSlot :=
  [/- 2218 -/ { field := k!"short_name", path := (.first [k!"SHORT-NAME"] .nil), item := .name, req := .always }] ++
  /- 2219 -/ readBswInterruptEntity

/-- `readBswInternalBehaviorEvents`, `parser/arxml_parser.py:2234-2268` (the `BswAsynchronousServerCallReturnsEvent` it makes) -/
def readBswInternalBehaviorEvents_BswAsynchronousServerCallReturnsEvent : List RSlot :=
  [/- 2265 -/ { field := k!"short_name", path := (.first [k!"SHORT-NAME"] .nil), item := .name, req := .always }] ++
  /- 2266 -/ readBswAsynchronousServerCallReturnsEvent

/-- `readBswInternalBehaviorEvents`, `parser/arxml_parser.py:2234-2268` (the `BswBackgroundEvent` it makes) -/
def readBswInternalBehaviorEvents_BswBackgroundEvent : List RSlot :=
  [/- 2256 -/ { field := k!"short_name", path := (.first [k!"SHORT-NAME"] .nil), item := .name, req := .always }] ++
  /- 2257 -/ readBswBackgroundEvent

/-- `readBswInternalBehaviorEvents`, `parser/arxml_parser.py:2234-2268` (the `BswDataReceivedEvent` it makes) -/
def readBswInternalBehaviorEvents_BswDataReceivedEvent : List RSlot :=
  [/- 2250 -/ { field := k!"short_name", path := (.first [k!"SHORT-NAME"] .nil), item := .name, req := .always }] ++
  /- 2251 -/ readBswDataReceivedEvent

/-- `readBswInternalBehaviorEvents`, `parser/arxml_parser.py:2234-2268` (the `BswExternalTriggerOccurredEvent` it makes) -/
def readBswInternalBehaviorEvents_BswExternalTriggerOccurredEvent : List RSlot :=
  [/- 2259 -/ { field := k!"short_name", path := (.first [k!"SHORT-NAME"] .nil), item := .name, req := .always }] ++
  /- 2260 -/ readBswExternalTriggerOccurredEvent

/-- `readBswInternalTriggerOccurredEvent`, `parser/arxml_parser.py:1308-1312` -/
def readBswInternalTriggerOccurredEvent : List RSlot :=
  /- 1311 -/ readBswScheduleEvent ++
  [/- 1312 -/ { field := k!"eventSourceRef", path := (.first [k!"EVENT-SOURCE-REF"] .nil), item := (.prim .ref) }]

/-- `readBswInternalBehaviorEvents`, `parser/arxml_parser.py:2234-2268` (the `BswInternalTriggerOccurredEvent` it makes) -/
def readBswInternalBehaviorEvents_BswInternalTriggerOccurredEvent : List RSlot :=
  [/- 2253 -/ { field := k!"short_name", path := (.first [k!"SHORT-NAME"] .nil), item := .name, req := .always }] ++
  /- 2254 -/ readBswInternalTriggerOccurredEvent

/-- `readBswModeSwitchedAckEvent`, `parser/arxml_parser.py:1284-1286`; also `readBswModeManagerErrorEvent` -/
def readBswModeSwitchedAckEvent : List RSlot :=
  /- 1285 -/ readBswScheduleEvent ++
  [/- 1286 -/ { field := k!"modeGroupRef", path := (.first [k!"MODE-GROUP-REF"] .nil), item := (.prim .ref) }]

/-- `readBswInternalBehaviorEvents`, `parser/arxml_parser.py:2234-2268` (the `BswModeSwitchedAckEvent` it makes) -/
def readBswInternalBehaviorEvents_BswModeSwitchedAckEvent : List RSlot :=
  [/- 2244 -/ { field := k!"short_name", path := (.first [k!"SHORT-NAME"] .nil), item := .name, req := .always }] ++
  /- 2245 -/ readBswModeSwitchedAckEvent

/-- `readBswModeSwitchEvent`, `parser/arxml_parser.py:1270-1276` -/
def readBswModeSwitchEvent : List RSlot :=
  /- 1273 -/ readBswScheduleEvent ++
  [/- 1274 -/ { field := k!"activation", path := (.first [k!"ACTIVATION"] .nil), item := (.prim .lit) },
   /- 1276 -/ { field := k!"modeIRefs", path := (.all k!"MODE-IREFS" (.all k!"MODE-IREF" .nil)), item := (.objs [(k!"MODE-IREF", k!"getModeInBswModuleDescriptionInstanceRef_ModeInBswModuleDescriptionInstanceRef")]) }]

/-- `readBswInternalBehaviorEvents`, `parser/arxml_parser.py:2234-2268` (the `BswModeSwitchEvent` it makes) -/
def readBswInternalBehaviorEvents_BswModeSwitchEvent : List RSlot :=
  [/- 2238 -/ { field := k!"short_name", path := (.first [k!"SHORT-NAME"] .nil), item := .name, req := .always }] ++
  /- 2239 -/ readBswModeSwitchEvent

/-- `readBswOperationInvokedEvent`, `parser/arxml_parser.py:2230-2232` -/
def readBswOperationInvokedEvent : List RSlot :=
  /- 2231 -/ readBswEvent ++
  [/- 2232 -/ { field := k!"entryRef", path := (.first [k!"ENTRY-REF"] .nil), item := (.prim .ref) }]

/-- `readBswInternalBehaviorEvents`, `parser/arxml_parser.py:2234-2268` (the `BswOperationInvokedEvent` it makes) -/
def readBswInternalBehaviorEvents_BswOperationInvokedEvent : List RSlot :=
  [/- 2262 -/ { field := k!"short_name", path := (.first [k!"SHORT-NAME"] .nil), item := .name, req := .always }] ++
  /- 2263 -/ readBswOperationInvokedEvent

/-- `readBswTimingEvent`, `parser/arxml_parser.py:1292-1300` -/
def readBswTimingEvent : List RSlot :=
  /- 1295 -/ readBswScheduleEvent ++
  [/- 1296 -/ { field := k!"period", path := (.first [k!"PERIOD"] .nil), item := (.prim .time) }]

/-- `readBswInternalBehaviorEvents`, `parser/arxml_parser.py:2234-2268` (the `BswTimingEvent` it makes) -/
def readBswInternalBehaviorEvents_BswTimingEvent : List RSlot :=
  [/- 2247 -/ { field := k!"short_name", path := (.first [k!"SHORT-NAME"] .nil), item := .name, req := .always }] ++
  /- 2248 -/ readBswTimingEvent

/-- `readBswQueuedDataReceptionPolicy`, `parser/arxml_parser.py:2278-2280` -/
def readBswQueuedDataReceptionPolicy : List RSlot :=
  /- 2279 -/ readBswDataReceptionPolicy ++
  [/- 2280 -/ { field := k!"queueLength", path := (.first [k!"QUEUE-LENGTH"] .nil), item := (.prim .positive) }]

/-- `readBswInternalBehaviorReceptionPolicies`, `parser/arxml_parser.py:2282-2290` (the `BswQueuedDataReceptionPolicy` it makes) -/
def readBswInternalBehaviorReceptionPolicies_BswQueuedDataReceptionPolicy : List RSlot :=
  /- 2287 -/ readBswQueuedDataReceptionPolicy

/-- `readBswServiceDependencyAssignedData`, `parser/arxml_parser.py:1436-1442` -/
def readBswServiceDependencyAssignedData : List RSlot :=
  [/- 1440 -/ { field := k!"assignedData", path := (.all k!"ASSIGNED-DATAS" (.all k!"ROLE-BASED-DATA-ASSIGNMENT" .nil)), item := (.objs [(k!"ROLE-BASED-DATA-ASSIGNMENT", k!"getRoleBasedDataAssignment_RoleBasedDataAssignment")]) },
   /- 1442 -/ { field := 0, path := (.all k!"ASSIGNED-DATAS" (.all 0 .nil)), item := (.guard [k!"ROLE-BASED-DATA-ASSIGNMENT"] .unsupported) }]

/-- `readBswServiceDependencyAssignedEntryRoles`, `parser/arxml_parser.py:1444-1450` -/
def readBswServiceDependencyAssignedEntryRoles : List RSlot :=
  [/- 1448 -/ { field := k!"assignedEntryRole", path := (.all k!"ASSIGNED-ENTRY-ROLES" (.all k!"ROLE-BASED-BSW-MODULE-ENTRY-ASSIGNMENT" .nil)), item := (.objs [(k!"ROLE-BASED-BSW-MODULE-ENTRY-ASSIGNMENT", k!"getRoleBasedBswModuleEntryAssignment_RoleBasedBswModuleEntryAssignment")]) },
   /- 1450 -/ { field := 0, path := (.all k!"ASSIGNED-ENTRY-ROLES" (.all 0 .nil)), item := (.guard [k!"ROLE-BASED-BSW-MODULE-ENTRY-ASSIGNMENT"] .unsupported) }]

/-- `readBswServiceDependencyServiceNeeds`, `parser/arxml_parser.py:1452-1581` -/
def readBswServiceDependencyServiceNeeds : List RSlot :=
  [/- 1579 -/ { field := 0, path := (.first [k!"SERVICE-NEEDS"] (.all 0 .nil)), item := (.guard [k!"BSW-MGR-NEEDS", k!"NV-BLOCK-NEEDS", k!"DIAGNOSTIC-COMMUNICATION-MANAGER-NEEDS", k!"DIAGNOSTIC-ROUTINE-NEEDS", k!"DIAGNOSTIC-VALUE-NEEDS", k!"DIAGNOSTIC-EVENT-NEEDS", k!"DIAGNOSTIC-EVENT-INFO-NEEDS", k!"DIAGNOSTIC-IO-CONTROL-NEEDS", k!"DIAGNOSTIC-ENABLE-CONDITION-NEEDS", k!"DIAGNOSTIC-OPERATION-CYCLE-NEEDS", k!"DIAGNOSTIC-STORAGE-CONDITION-NEEDS", k!"INDICATOR-STATUS-NEEDS", k!"FUNCTION-INHIBITION-AVAILABILITY-NEEDS", k!"CRYPTO-SERVICE-NEEDS", k!"ECU-STATE-MGR-USER-NEEDS", k!"DTC-STATUS-CHANGE-NOTIFICATION-NEEDS", k!"DLT-USER-NEEDS", k!"COM-MGR-USER-NEEDS", k!"SUPERVISED-ENTITY-NEEDS", k!"ERROR-TRACER-NEEDS", k!"OBD-INFO-SERVICE-NEEDS", k!"OBD-MONITOR-SERVICE-NEEDS", k!"OBD-PID-SERVICE-NEEDS", k!"OBD-CONTROL-SERVICE-NEEDS", k!"OBD-RATIO-SERVICE-NEEDS", k!"OBD-RATIO-DENOMINATOR-NEEDS", k!"DO-IP-ROUTING-ACTIVATION-AUTHENTICATION-NEEDS", k!"DO-IP-ROUTING-ACTIVATION-CONFIRMATION-NEEDS", k!"SECURE-ON-BOARD-COMMUNICATION-NEEDS", k!"IDS-MGR-NEEDS"] .unsupported) },
   /- 1581 -/ { field := k!"serviceNeeds", path := (.first [k!"SERVICE-NEEDS"] (.all 0 .nil)), item := (.objs [(k!"BSW-MGR-NEEDS", k!"readBswServiceDependencyServiceNeeds_BswMgrNeeds"), (k!"NV-BLOCK-NEEDS", k!"readNvBlockDescriptor_NvBlockNeeds"), (k!"DIAGNOSTIC-COMMUNICATION-MANAGER-NEEDS", k!"readBswServiceDependencyServiceNeeds_DiagnosticCommunicationManagerNeeds"), (k!"DIAGNOSTIC-ROUTINE-NEEDS", k!"readBswServiceDependencyServiceNeeds_DiagnosticRoutineNeeds"), (k!"DIAGNOSTIC-VALUE-NEEDS", k!"readBswServiceDependencyServiceNeeds_DiagnosticValueNeeds"), (k!"DIAGNOSTIC-EVENT-NEEDS", k!"readBswServiceDependencyServiceNeeds_DiagnosticEventNeeds"), (k!"DIAGNOSTIC-EVENT-INFO-NEEDS", k!"readBswServiceDependencyServiceNeeds_DiagnosticEventInfoNeeds"), (k!"DIAGNOSTIC-IO-CONTROL-NEEDS", k!"readBswServiceDependencyServiceNeeds_DiagnosticIoControlNeeds"), (k!"DIAGNOSTIC-ENABLE-CONDITION-NEEDS", k!"readBswServiceDependencyServiceNeeds_DiagnosticEnableConditionNeeds"), (k!"DIAGNOSTIC-OPERATION-CYCLE-NEEDS", k!"readBswServiceDependencyServiceNeeds_DiagnosticOperationCycleNeeds"), (k!"DIAGNOSTIC-STORAGE-CONDITION-NEEDS", k!"readBswServiceDependencyServiceNeeds_DiagnosticStorageConditionNeeds"), (k!"INDICATOR-STATUS-NEEDS", k!"readBswServiceDependencyServiceNeeds_IndicatorStatusNeeds"), (k!"FUNCTION-INHIBITION-AVAILABILITY-NEEDS", k!"readBswServiceDependencyServiceNeeds_FunctionInhibitionAvailabilityNeeds"), (k!"CRYPTO-SERVICE-NEEDS", k!"readBswServiceDependencyServiceNeeds_CryptoServiceNeeds"), (k!"ECU-STATE-MGR-USER-NEEDS", k!"readBswServiceDependencyServiceNeeds_EcuStateMgrUserNeeds"), (k!"DTC-STATUS-CHANGE-NOTIFICATION-NEEDS", k!"readBswServiceDependencyServiceNeeds_DtcStatusChangeNotificationNeeds"), (k!"DLT-USER-NEEDS", k!"readBswServiceDependencyServiceNeeds_DltUserNeeds"), (k!"COM-MGR-USER-NEEDS", k!"readBswServiceDependencyServiceNeeds_ComMgrUserNeeds"), (k!"SUPERVISED-ENTITY-NEEDS", k!"readBswServiceDependencyServiceNeeds_SupervisedEntityNeeds"), (k!"ERROR-TRACER-NEEDS", k!"readBswServiceDependencyServiceNeeds_ErrorTracerNeeds"), (k!"OBD-INFO-SERVICE-NEEDS", k!"readBswServiceDependencyServiceNeeds_ObdInfoServiceNeeds"), (k!"OBD-MONITOR-SERVICE-NEEDS", k!"readBswServiceDependencyServiceNeeds_ObdMonitorServiceNeeds"), (k!"OBD-PID-SERVICE-NEEDS", k!"readBswServiceDependencyServiceNeeds_ObdPidServiceNeeds"), (k!"OBD-CONTROL-SERVICE-NEEDS", k!"readBswServiceDependencyServiceNeeds_ObdControlServiceNeeds"), (k!"OBD-RATIO-SERVICE-NEEDS", k!"readBswServiceDependencyServiceNeeds_ObdRatioServiceNeeds"), (k!"OBD-RATIO-DENOMINATOR-NEEDS", k!"readBswServiceDependencyServiceNeeds_ObdRatioDenominatorNeeds"), (k!"DO-IP-ROUTING-ACTIVATION-AUTHENTICATION-NEEDS", k!"readBswServiceDependencyServiceNeeds_DoIpRoutingActivationAuthenticationNeeds"), (k!"DO-IP-ROUTING-ACTIVATION-CONFIRMATION-NEEDS", k!"readBswServiceDependencyServiceNeeds_DoIpRoutingActivationConfirmationNeeds"), (k!"SECURE-ON-BOARD-COMMUNICATION-NEEDS", k!"readBswServiceDependencyServiceNeeds_SecureOnBoardCommunicationNeeds"), (k!"IDS-MGR-NEEDS", k!"readBswServiceDependencyServiceNeeds_IdsMgrNeeds")]), last := true }]

/-- `readSymbolicNameProps`, `parser/arxml_parser.py:1422-1428` -/
def readSymbolicNameProps : List RSlot :=
  [/- 1428 -/ { field := k!"symbolicNameProps", path := (.first [k!"SYMBOLIC-NAME-PROPS"] .nil), item := (.objs [(k!"SYMBOLIC-NAME-PROPS", k!"readSymbolicNameProps_SymbolicNameProps")]) }]

/-- `readBswServiceDependency`, `parser/arxml_parser.py:1583-1595` -/
def readBswServiceDependency : List RSlot :=
  [/- 1584 -/ { field := k!"timestamp", path := .nil, item := (.attr k!"T" .raw) },
   /- 1584 -/ { field := k!"uuid", path := .nil, item := (.attr k!"UUID" .raw) },
   /- 1585 -/ { field := k!"ident", path := (.first [k!"IDENT"] .nil), item := (.objs [(k!"IDENT", k!"getBswServiceDependencyIdent_BswServiceDependencyIdent")]) },
   /- 1589 -/ { field := k!"assignedDataTypes", path := (.all k!"ASSIGNED-DATA-TYPES" (.all k!"ROLE-BASED-DATA-TYPE-ASSIGNMENT" .nil)), item := (.objs [(k!"ROLE-BASED-DATA-TYPE-ASSIGNMENT", k!"getRoleBasedDataTypeAssignment_RoleBasedDataTypeAssignment")]) },
   /- 1591 -/ { field := 0, path := (.all k!"ASSIGNED-DATA-TYPES" (.all 0 .nil)), item := (.guard [k!"ROLE-BASED-DATA-TYPE-ASSIGNMENT"] .unsupported) }] ++
  /- 1592 -/ readBswServiceDependencyAssignedData ++
  /- 1593 -/ readBswServiceDependencyAssignedEntryRoles ++
  /- 1594 -/ readBswServiceDependencyServiceNeeds ++
  /- 1595 -/ readSymbolicNameProps

/-- `readBswInternalBehaviorServiceDependencies`, `parser/arxml_parser.py:2304-2312` (the `BswServiceDependency` it makes) -/
def readBswInternalBehaviorServiceDependencies_BswServiceDependency : List RSlot :=
  /- 2309 -/ readBswServiceDependency

/-- `readBswMgrNeeds`, `parser/arxml_parser.py:1616-1617`; also 4 other methods -/
def readBswMgrNeeds : List RSlot :=
  /- 1617 -/ readTrigger

/-- `readBswModuleClientServerEntry`, `parser/arxml_parser.py:2376-2380` -/
def readBswModuleClientServerEntry : List RSlot :=
  /- 2377 -/ readReferrable ++
  [/- 2378 -/ { field := k!"encapsulatedEntryRef", path := (.first [k!"ENCAPSULATED-ENTRY-REF"] .nil), item := (.prim .ref) },
   /- 2379 -/ { field := k!"isReentrant", path := (.first [k!"IS-REENTRANT"] .nil), item := (.prim .boolean) },
   /- 2380 -/ { field := k!"isSynchronous", path := (.first [k!"IS-SYNCHRONOUS"] .nil), item := (.prim .boolean) }]

/-- `readBswModuleDescriptionBswInternalBehaviors`, `parser/arxml_parser.py:2328-2335` (the `BswInternalBehavior` it makes) -/
def readBswModuleDescriptionBswInternalBehaviors_BswInternalBehavior : List RSlot :=
  [/- 2332 -/ { field := k!"short_name", path := (.first [k!"SHORT-NAME"] .nil), item := .name, req := .always }] ++
  /- 2333 -/ readBswInternalBehavior

/-- `readBswModuleDescriptionBswModuleDependencies`, `parser/arxml_parser.py:2424-2432` (the `BswModuleDependency` it makes) -/
def readBswModuleDescriptionBswModuleDependencies_BswModuleDependency : List RSlot :=
  [/- 2428 -/ { field := k!"short_name", path := (.first [k!"SHORT-NAME"] .nil), item := .name, req := .always },
   /- 2429 -/ { field := k!"targetModuleId", path := (.first [k!"TARGET-MODULE-ID"] .nil), item := (.prim .numerical) },
   /- 2430 -/ { field := k!"targetModuleRef", path := (.first [k!"TARGET-MODULE-REF"] .nil), item := (.prim .ref) }]

/-- `readBswModuleDescriptionProvidedClientServerEntries`, `parser/arxml_parser.py:2382-2389` (the `BswModuleClientServerEntry` it makes); also `readBswModuleDescriptionRequiredClientServerEntries` -/
def readBswModuleDescriptionProvidedClientServerEntries_BswModuleClientServerEntry : List RSlot :=
  [/- 2386 -/ { field := k!"short_name", path := (.first [k!"SHORT-NAME"] .nil), item := .name, req := .always }] ++
  /- 2387 -/ readBswModuleClientServerEntry

/-- `readVariableDataPrototype`, `parser/arxml_parser.py:3421-3423` -/
def readVariableDataPrototype : List RSlot :=
  /- 3422 -/ readAutosarDataPrototype ++
  [/- 5392 -/ { field := 0, path := (.first [k!"INIT-VALUE", 0] .nil), item := (.guard [k!"APPLICATION-VALUE-SPECIFICATION", k!"APPLICATION-RULE-BASED-VALUE-SPECIFICATION", k!"COMPOSITE-RULE-BASED-VALUE-SPECIFICATION", k!"RECORD-VALUE-SPECIFICATION", k!"NUMERICAL-VALUE-SPECIFICATION", k!"ARRAY-VALUE-SPECIFICATION", k!"TEXT-VALUE-SPECIFICATION", k!"CONSTANT-REFERENCE"] .unbound) },
   /- 3423 -/ { field := k!"initValue", path := (.first [k!"INIT-VALUE", 0] .nil), item := (.objs [(k!"APPLICATION-VALUE-SPECIFICATION", k!"getApplicationValueSpecification_ApplicationValueSpecification"), (k!"APPLICATION-RULE-BASED-VALUE-SPECIFICATION", k!"getApplicationRuleBasedValueSpecification_ApplicationRuleBasedValueSpecification"), (k!"COMPOSITE-RULE-BASED-VALUE-SPECIFICATION", k!"getCompositeRuleBasedValueSpecification_CompositeRuleBasedValueSpecification"), (k!"RECORD-VALUE-SPECIFICATION", k!"getRecordValueSpecification_RecordValueSpecification"), (k!"NUMERICAL-VALUE-SPECIFICATION", k!"getNumericalValueSpecification_NumericalValueSpecification"), (k!"ARRAY-VALUE-SPECIFICATION", k!"getArrayValueSpecification_ArrayValueSpecification"), (k!"TEXT-VALUE-SPECIFICATION", k!"getTextValueSpecification_TextValueSpecification"), (k!"CONSTANT-REFERENCE", k!"getConstantReference_ConstantReference")]) }]

/-- `readNvBlockDescriptor`, `parser/arxml_parser.py:1095-1146` (the `VariableDataPrototype` it makes); also 8 other methods -/
def readNvBlockDescriptor_VariableDataPrototype : List RSlot :=
  [/- 1131 -/ { field := k!"short_name", path := (.first [k!"SHORT-NAME"] .nil), item := .name, req := .always }] ++
  /- 1132 -/ readVariableDataPrototype

/-- `readModeDeclarationGroupPrototype`, `parser/arxml_parser.py:1190-1195` -/
def readModeDeclarationGroupPrototype : List RSlot :=
  /- 1191 -/ readIdentifiable ++
  [/- 1192 -/ { field := k!"typeTRef", path := (.first [k!"TYPE-TREF"] .nil), item := (.prim .ref) },
   /- 1195 -/ { field := k!"swCalibrationAccess", path := (.first [k!"SW-CALIBRATION-ACCESS"] .nil), item := (.prim .litPlain) }]

/-- `readModeSwitchInterfaceModeGroup`, `parser/arxml_parser.py:5704-5709` (the `ModeDeclarationGroupPrototype` it makes); also `readBswModuleDescriptionProvidedModeGroups`, `readBswModuleDescriptionRequiredModeGroups` -/
def readModeSwitchInterfaceModeGroup_ModeDeclarationGroupPrototype : List RSlot :=
  [/- 5708 -/ { field := k!"short_name", path := (.first [k!"SHORT-NAME"] .nil), item := .name, req := .always }] ++
  /- 5709 -/ readModeDeclarationGroupPrototype

/-- `readBswModuleEntityCallPoints`, `parser/arxml_parser.py:2170-2180` (the `BswSynchronousServerCallPoint` it makes) -/
def readBswModuleEntityCallPoints_BswSynchronousServerCallPoint : List RSlot :=
  [/- 2177 -/ { field := k!"short_name", path := (.first [k!"SHORT-NAME"] .nil), item := .name, req := .always }] ++
  /- 2178 -/ readBswSynchronousServerCallPoint

/-- `readBswVariableAccess`, `parser/arxml_parser.py:2129-2131` -/
def readBswVariableAccess : List RSlot :=
  /- 2130 -/ readReferrable ++
  [/- 2131 -/ { field := k!"accessedVariableRef", path := (.first [k!"ACCESSED-VARIABLE-REF"] .nil), item := (.prim .ref) }]

/-- `readBswModuleEntityDataSendPoints`, `parser/arxml_parser.py:2133-2140` (the `BswVariableAccess` it makes); also `readBswModuleEntityDataReceiverPoints` -/
def readBswModuleEntityDataSendPoints_BswVariableAccess : List RSlot :=
  [/- 2137 -/ { field := k!"short_name", path := (.first [k!"SHORT-NAME"] .nil), item := .name, req := .always }] ++
  /- 2138 -/ readBswVariableAccess

/-- `readSwServiceArg`, `parser/arxml_parser.py:2443-2447` -/
def readSwServiceArg : List RSlot :=
  /- 2444 -/ readIdentifiable ++
  [/- 2445 -/ { field := k!"direction", path := (.first [k!"DIRECTION"] .nil), item := (.prim .lit) },
   /- 2446 -/ { field := k!"swArraysize", path := (.first [k!"SW-ARRAYSIZE"] .nil), item := (.objs [(k!"SW-ARRAYSIZE", k!"getValueList_ValueList")]) },
   /- 2447 -/ { field := k!"swDataDefProps", path := (.first [k!"SW-DATA-DEF-PROPS"] .nil), item := (.objs [(k!"SW-DATA-DEF-PROPS", k!"getSwDataDefProps_SwDataDefProps")]) }]

/-- `readBswModuleEntryArguments`, `parser/arxml_parser.py:2449-2456` (the `SwServiceArg` it makes); also `readBswModuleEntryReturnType` -/
def readBswModuleEntryArguments_SwServiceArg : List RSlot :=
  [/- 2453 -/ { field := k!"short_name", path := (.first [k!"SHORT-NAME"] .nil), item := .name, req := .always }] ++
  /- 2454 -/ readSwServiceArg

/-- `readBswServiceDependencyServiceNeeds`, `parser/arxml_parser.py:1452-1581` (the `BswMgrNeeds` it makes); also `readCouplingPortDetailsCouplingPortStructuralElements`, `readSwcServiceDependencyServiceNeeds` -/
def readBswServiceDependencyServiceNeeds_BswMgrNeeds : List RSlot :=
  [/- 1460 -/ { field := k!"short_name", path := (.first [k!"SHORT-NAME"] .nil), item := .name, req := .always }] ++
  /- 1461 -/ readBswMgrNeeds

/-- `readComMgrUserNeeds`, `parser/arxml_parser.py:1808-1811` -/
def readComMgrUserNeeds : List RSlot :=
  /- 1810 -/ readTrigger ++
  [/- 1811 -/ { field := k!"maxCommMode", path := (.first [k!"MAX-COMM-MODE"] .nil), item := (.prim .lit) }]

/-- `readBswServiceDependencyServiceNeeds`, `parser/arxml_parser.py:1452-1581` (the `ComMgrUserNeeds` it makes); also `readSwcServiceDependencyServiceNeeds` -/
def readBswServiceDependencyServiceNeeds_ComMgrUserNeeds : List RSlot :=
  [/- 1528 -/ { field := k!"short_name", path := (.first [k!"SHORT-NAME"] .nil), item := .name, req := .always }] ++
  /- 1529 -/ readComMgrUserNeeds

/-- `readCryptoServiceNeeds`, `parser/arxml_parser.py:1790-1793` -/
def readCryptoServiceNeeds : List RSlot :=
  /- 1792 -/ readTrigger ++
  [/- 1793 -/ { field := k!"maximumKeyLength", path := (.first [k!"MAXIMUM-KEY-LENGTH"] .nil), item := (.prim .positive) }]

/-- `readBswServiceDependencyServiceNeeds`, `parser/arxml_parser.py:1452-1581` (the `CryptoServiceNeeds` it makes); also `readSwcServiceDependencyServiceNeeds` -/
def readBswServiceDependencyServiceNeeds_CryptoServiceNeeds : List RSlot :=
  [/- 1512 -/ { field := k!"short_name", path := (.first [k!"SHORT-NAME"] .nil), item := .name, req := .always }] ++
  /- 1513 -/ readCryptoServiceNeeds

/-- `readDiagnosticCommunicationManagerNeeds`, `parser/arxml_parser.py:1695-1698` -/
def readDiagnosticCommunicationManagerNeeds : List RSlot :=
  /- 1697 -/ readBswMgrNeeds ++
  [/- 1698 -/ { field := k!"serviceRequestCallbackType", path := (.first [k!"SERVICE-REQUEST-CALLBACK-TYPE"] .nil), item := (.prim .lit) }]

/-- `readBswServiceDependencyServiceNeeds`, `parser/arxml_parser.py:1452-1581` (the `DiagnosticCommunicationManagerNeeds` it makes); also `readSwcServiceDependencyServiceNeeds` -/
def readBswServiceDependencyServiceNeeds_DiagnosticCommunicationManagerNeeds : List RSlot :=
  [/- 1468 -/ { field := k!"short_name", path := (.first [k!"SHORT-NAME"] .nil), item := .name, req := .always }] ++
  /- 1469 -/ readDiagnosticCommunicationManagerNeeds

/-- `readDiagnosticEnableConditionNeeds`, `parser/arxml_parser.py:1765-1768`; also `readDiagnosticStorageConditionNeeds` -/
def readDiagnosticEnableConditionNeeds : List RSlot :=
  /- 1767 -/ readBswMgrNeeds ++
  [/- 1768 -/ { field := k!"initialStatus", path := (.first [k!"INITIAL-STATUS"] .nil), item := (.prim .lit) }]

/-- `readBswServiceDependencyServiceNeeds`, `parser/arxml_parser.py:1452-1581` (the `DiagnosticEnableConditionNeeds` it makes); also `readSwcServiceDependencyServiceNeeds` -/
def readBswServiceDependencyServiceNeeds_DiagnosticEnableConditionNeeds : List RSlot :=
  [/- 1492 -/ { field := k!"short_name", path := (.first [k!"SHORT-NAME"] .nil), item := .name, req := .always }] ++
  /- 1493 -/ readDiagnosticEnableConditionNeeds

/-- `readDiagnosticEventInfoNeeds`, `parser/arxml_parser.py:1751-1755` -/
def readDiagnosticEventInfoNeeds : List RSlot :=
  /- 1753 -/ readBswMgrNeeds ++
  [/- 1754 -/ { field := k!"dtcKind", path := (.first [k!"DTC-KIND"] .nil), item := (.prim .lit) },
   /- 1755 -/ { field := k!"udsDtcNumber", path := (.first [k!"UDS-DTC-NUMBER"] .nil), item := (.prim .positive) }]

/-- `readBswServiceDependencyServiceNeeds`, `parser/arxml_parser.py:1452-1581` (the `DiagnosticEventInfoNeeds` it makes); also `readSwcServiceDependencyServiceNeeds` -/
def readBswServiceDependencyServiceNeeds_DiagnosticEventInfoNeeds : List RSlot :=
  [/- 1484 -/ { field := k!"short_name", path := (.first [k!"SHORT-NAME"] .nil), item := .name, req := .always }] ++
  /- 1485 -/ readDiagnosticEventInfoNeeds

/-- `readDiagEventDebounceAlgorithm`, `parser/arxml_parser.py:1724-1737` -/
def readDiagEventDebounceAlgorithm : List RSlot :=
  [/- 1728 -/ { field := k!"diagEventDebounceAlgorithm", path := (.all k!"DIAG-EVENT-DEBOUNCE-ALGORITHM" (.all 0 .nil)), item := (.objs [(k!"DIAG-EVENT-DEBOUNCE-COUNTER-BASED", k!"readDiagEventDebounceAlgorithm_DiagEventDebounceCounterBased"), (k!"DIAG-EVENT-DEBOUNCE-MONITOR-INTERNAL", k!"readDiagEventDebounceAlgorithm_DiagEventDebounceMonitorInternal"), (k!"DIAG-EVENT-DEBOUNCE-TIME-BASED", k!"readDiagEventDebounceAlgorithm_DiagEventDebounceTimeBased")]), elems := true, named := true, one := true, fresh := true },
   /- 1737 -/ { field := 0, path := (.all k!"DIAG-EVENT-DEBOUNCE-ALGORITHM" (.all 0 .nil)), item := (.guard [k!"DIAG-EVENT-DEBOUNCE-COUNTER-BASED", k!"DIAG-EVENT-DEBOUNCE-MONITOR-INTERNAL", k!"DIAG-EVENT-DEBOUNCE-TIME-BASED"] .unsupported) }]

/-- `readDiagnosticEventNeeds`, `parser/arxml_parser.py:1739-1749` -/
def readDiagnosticEventNeeds : List RSlot :=
  /- 1741 -/ readBswMgrNeeds ++
  [/- 1743 -/ { field := k!"deferringFidRefs", path := (.all k!"DEFERRING-FID-REFS" (.all k!"DEFERRING-FID-REF" .nil)), item := (.prim .ref) }] ++
  /- 1744 -/ readDiagEventDebounceAlgorithm ++
  [/- 1745 -/ { field := k!"inhibitingFidRef", path := (.first [k!"INHIBITING-FID-REF"] .nil), item := (.prim .ref) },
   /- 1747 -/ { field := k!"inhibitingSecondaryFidRefs", path := (.all k!"INHIBITING-SECONDARY-FID-REFS" (.all k!"INHIBITING-SECONDARY-FID-REF" .nil)), item := (.prim .ref) },
   /- 1748 -/ { field := k!"prestoredFreezeframeStoredInNvm", path := (.first [k!"PRESTORED-FREEZEFRAME-STORED-IN-NVM"] .nil), item := (.prim .boolean) },
   /- 1749 -/ { field := k!"usesMonitorData", path := (.first [k!"USES-MONITOR-DATA"] .nil), item := (.prim .boolean) }]

/-- `readBswServiceDependencyServiceNeeds`, `parser/arxml_parser.py:1452-1581` (the `DiagnosticEventNeeds` it makes); also `readSwcServiceDependencyServiceNeeds` -/
def readBswServiceDependencyServiceNeeds_DiagnosticEventNeeds : List RSlot :=
  [/- 1480 -/ { field := k!"short_name", path := (.first [k!"SHORT-NAME"] .nil), item := .name, req := .always }] ++
  /- 1481 -/ readDiagnosticEventNeeds

/-- `readDiagnosticIoControlNeeds`, `parser/arxml_parser.py:1757-1763` -/
def readDiagnosticIoControlNeeds : List RSlot :=
  /- 1759 -/ readBswMgrNeeds ++
  [/- 1760 -/ { field := k!"currentValueRef", path := (.first [k!"CURRENT-VALUE-REF"] .nil), item := (.prim .ref) },
   /- 1761 -/ { field := k!"freezeCurrentStateSupported", path := (.first [k!"FREEZE-CURRENT-STATE-SUPPORTED"] .nil), item := (.prim .boolean) },
   /- 1762 -/ { field := k!"resetToDefaultSupported", path := (.first [k!"RESET-TO-DEFAULT-SUPPORTED"] .nil), item := (.prim .boolean) },
   /- 1763 -/ { field := k!"shortTermAdjustmentSupported", path := (.first [k!"SHORT-TERM-ADJUSTMENT-SUPPORTED"] .nil), item := (.prim .boolean) }]

/-- `readBswServiceDependencyServiceNeeds`, `parser/arxml_parser.py:1452-1581` (the `DiagnosticIoControlNeeds` it makes); also `readSwcServiceDependencyServiceNeeds` -/
def readBswServiceDependencyServiceNeeds_DiagnosticIoControlNeeds : List RSlot :=
  [/- 1488 -/ { field := k!"short_name", path := (.first [k!"SHORT-NAME"] .nil), item := .name, req := .always }] ++
  /- 1489 -/ readDiagnosticIoControlNeeds

/-- `readDiagnosticOperationCycleNeeds`, `parser/arxml_parser.py:1770-1773` -/
def readDiagnosticOperationCycleNeeds : List RSlot :=
  /- 1772 -/ readBswMgrNeeds ++
  [/- 1773 -/ { field := k!"operationCycle", path := (.first [k!"OPERATION-CYCLE"] .nil), item := (.prim .lit) }]

/-- `readBswServiceDependencyServiceNeeds`, `parser/arxml_parser.py:1452-1581` (the `DiagnosticOperationCycleNeeds` it makes); also `readSwcServiceDependencyServiceNeeds` -/
def readBswServiceDependencyServiceNeeds_DiagnosticOperationCycleNeeds : List RSlot :=
  [/- 1496 -/ { field := k!"short_name", path := (.first [k!"SHORT-NAME"] .nil), item := .name, req := .always }] ++
  /- 1497 -/ readDiagnosticOperationCycleNeeds

/-- `readDiagnosticRoutineNeeds`, `parser/arxml_parser.py:1700-1704` -/
def readDiagnosticRoutineNeeds : List RSlot :=
  /- 1702 -/ readBswMgrNeeds ++
  [/- 1703 -/ { field := k!"diagRoutineType", path := (.first [k!"DIAG-ROUTINE-TYPE"] .nil), item := (.prim .lit) },
   /- 1704 -/ { field := k!"RidNumber", path := (.first [k!"RID-NUMBER"] .nil), item := (.prim .integer) }]

/-- `readBswServiceDependencyServiceNeeds`, `parser/arxml_parser.py:1452-1581` (the `DiagnosticRoutineNeeds` it makes); also `readSwcServiceDependencyServiceNeeds` -/
def readBswServiceDependencyServiceNeeds_DiagnosticRoutineNeeds : List RSlot :=
  [/- 1472 -/ { field := k!"short_name", path := (.first [k!"SHORT-NAME"] .nil), item := .name, req := .always }] ++
  /- 1473 -/ readDiagnosticRoutineNeeds

/-- `readDiagnosticValueNeeds`, `parser/arxml_parser.py:1706-1713` -/
def readDiagnosticValueNeeds : List RSlot :=
  /- 1708 -/ readBswMgrNeeds ++
  [/- 1709 -/ { field := k!"dataLength", path := (.first [k!"DATA-LENGTH"] .nil), item := (.prim .positive) },
   /- 1710 -/ { field := k!"diagnosticValueAccess", path := (.first [k!"DIAGNOSTIC-VALUE-ACCESS"] .nil), item := (.prim .lit) },
   /- 1711 -/ { field := k!"DidNumber", path := (.first [k!"DID-NUMBER"] .nil), item := (.prim .integer) },
   /- 1712 -/ { field := k!"fixedLength", path := (.first [k!"FIXED-LENGTH"] .nil), item := (.prim .boolean) },
   /- 1713 -/ { field := k!"processingStyle", path := (.first [k!"PROCESSING-STYLE"] .nil), item := (.prim .lit) }]

/-- `readBswServiceDependencyServiceNeeds`, `parser/arxml_parser.py:1452-1581` (the `DiagnosticValueNeeds` it makes); also `readSwcServiceDependencyServiceNeeds` -/
def readBswServiceDependencyServiceNeeds_DiagnosticValueNeeds : List RSlot :=
  [/- 1476 -/ { field := k!"short_name", path := (.first [k!"SHORT-NAME"] .nil), item := .name, req := .always }] ++
  /- 1477 -/ readDiagnosticValueNeeds

/-- `readDoIpRoutingActivationConfirmationNeeds`, `parser/arxml_parser.py:1679-1685`; also `readDoIpRoutingActivationAuthenticationNeeds` -/
def readDoIpRoutingActivationConfirmationNeeds : List RSlot :=
  /- 1680 -/ readTrigger ++
  [/- 1681 -/ { field := k!"dataLengthRequest", path := (.first [k!"DATA-LENGTH-REQUEST"] .nil), item := (.prim .positive) },
   /- 1682 -/ { field := k!"dataLengthResponse", path := (.first [k!"DATA-LENGTH-RESPONSE"] .nil), item := (.prim .positive) },
   /- 1685 -/ { field := k!"routingActivationType", path := (.first [k!"ROUTING-ACTIVATION-TYPE"] .nil), item := (.prim .litPlain) }]

/-- `readBswServiceDependencyServiceNeeds`, `parser/arxml_parser.py:1452-1581` (the `DoIpRoutingActivationConfirmationNeeds` it makes); also `readSwcServiceDependencyServiceNeeds` -/
def readBswServiceDependencyServiceNeeds_DoIpRoutingActivationConfirmationNeeds : List RSlot :=
  [/- 1568 -/ { field := k!"short_name", path := (.first [k!"SHORT-NAME"] .nil), item := .name, req := .always }] ++
  /- 1569 -/ readDoIpRoutingActivationConfirmationNeeds

/-- `readDtcStatusChangeNotificationNeeds`, `parser/arxml_parser.py:1799-1802` -/
def readDtcStatusChangeNotificationNeeds : List RSlot :=
  /- 1801 -/ readBswMgrNeeds ++
  [/- 1802 -/ { field := k!"dtcFormatType", path := (.first [k!"DTC-FORMAT-TYPE"] .nil), item := (.prim .lit) }]

/-- `readBswServiceDependencyServiceNeeds`, `parser/arxml_parser.py:1452-1581` (the `DtcStatusChangeNotificationNeeds` it makes); also `readSwcServiceDependencyServiceNeeds` -/
def readBswServiceDependencyServiceNeeds_DtcStatusChangeNotificationNeeds : List RSlot :=
  [/- 1520 -/ { field := k!"short_name", path := (.first [k!"SHORT-NAME"] .nil), item := .name, req := .always }] ++
  /- 1521 -/ readDtcStatusChangeNotificationNeeds

/-- `readErrorTracerNeeds`, `parser/arxml_parser.py:1848-1863` -/
def readErrorTracerNeeds : List RSlot :=
  /- 1850 -/ readTrigger ++
  [/- 1854 -/ { field := k!"tracedFailures", path := (.all k!"TRACED-FAILURES" (.all 0 .nil)), item := (.objs [(k!"DEVELOPMENT-ERROR", k!"readErrorTracerNeeds_DevelopmentError"), (k!"RUNTIME-ERROR", k!"readErrorTracerNeeds_RuntimeError"), (k!"TRANSIENT-FAULT", k!"readErrorTracerNeeds_TransientFault")]), elems := true, named := true },
   /- 1863 -/ { field := 0, path := (.all k!"TRACED-FAILURES" (.all 0 .nil)), item := (.guard [k!"DEVELOPMENT-ERROR", k!"RUNTIME-ERROR", k!"TRANSIENT-FAULT"] .unsupported) }]

/-- `readBswServiceDependencyServiceNeeds`, `parser/arxml_parser.py:1452-1581` (the `ErrorTracerNeeds` it makes); also `readSwcServiceDependencyServiceNeeds` -/
def readBswServiceDependencyServiceNeeds_ErrorTracerNeeds : List RSlot :=
  [/- 1536 -/ { field := k!"short_name", path := (.first [k!"SHORT-NAME"] .nil), item := .name, req := .always }] ++
  /- 1537 -/ readErrorTracerNeeds

/-- `readFunctionInhibitionAvailabilityNeeds`, `parser/arxml_parser.py:1785-1788` -/
def readFunctionInhibitionAvailabilityNeeds : List RSlot :=
  /- 1787 -/ readTrigger ++
  [/- 1788 -/ { field := k!"controlledFidRef", path := (.first [k!"CONTROLLED-FID-REF"] .nil), item := (.prim .ref) }]

/-- `readBswServiceDependencyServiceNeeds`, `parser/arxml_parser.py:1452-1581` (the `FunctionInhibitionAvailabilityNeeds` it makes); also `readSwcServiceDependencyServiceNeeds` -/
def readBswServiceDependencyServiceNeeds_FunctionInhibitionAvailabilityNeeds : List RSlot :=
  [/- 1508 -/ { field := k!"short_name", path := (.first [k!"SHORT-NAME"] .nil), item := .name, req := .always }] ++
  /- 1509 -/ readFunctionInhibitionAvailabilityNeeds

/-- `readIdsMgrNeeds`, `parser/arxml_parser.py:1691-1693` -/
def readIdsMgrNeeds : List RSlot :=
  /- 1692 -/ readTrigger ++
  [/- 1693 -/ { field := k!"useSmartSensorApi", path := (.first [k!"USE-SMART-SENSOR-API"] .nil), item := (.prim .boolean) }]

/-- `readBswServiceDependencyServiceNeeds`, `parser/arxml_parser.py:1452-1581` (the `IdsMgrNeeds` it makes); also `readSwcServiceDependencyServiceNeeds` -/
def readBswServiceDependencyServiceNeeds_IdsMgrNeeds : List RSlot :=
  [/- 1576 -/ { field := k!"short_name", path := (.first [k!"SHORT-NAME"] .nil), item := .name, req := .always }] ++
  /- 1577 -/ readIdsMgrNeeds

/-- `readIndicatorStatusNeeds`, `parser/arxml_parser.py:1780-1783` -/
def readIndicatorStatusNeeds : List RSlot :=
  /- 1782 -/ readTrigger ++
  [/- 1783 -/ { field := k!"type", path := (.first [k!"TYPE"] .nil), item := (.prim .lit) }]

/-- `readBswServiceDependencyServiceNeeds`, `parser/arxml_parser.py:1452-1581` (the `IndicatorStatusNeeds` it makes); also `readSwcServiceDependencyServiceNeeds` -/
def readBswServiceDependencyServiceNeeds_IndicatorStatusNeeds : List RSlot :=
  [/- 1504 -/ { field := k!"short_name", path := (.first [k!"SHORT-NAME"] .nil), item := .name, req := .always }] ++
  /- 1505 -/ readIndicatorStatusNeeds

/-- `readNvBlockNeeds`, `parser/arxml_parser.py:1619-1640` -/
def readNvBlockNeeds : List RSlot :=
  /- 1621 -/ readTrigger ++
  [/- 1622 -/ { field := k!"calcRamBlockCrc", path := (.first [k!"CALC-RAM-BLOCK-CRC"] .nil), item := (.prim .boolean) },
   /- 1623 -/ { field := k!"checkStaticBlockId", path := (.first [k!"CHECK-STATIC-BLOCK-ID"] .nil), item := (.prim .boolean) },
   /- 1624 -/ { field := k!"nDataSets", path := (.first [k!"N-DATA-SETS"] .nil), item := (.prim .numerical) },
   /- 1625 -/ { field := k!"nRomBlocks", path := (.first [k!"N-ROM-BLOCKS"] .nil), item := (.prim .numerical) },
   /- 1626 -/ { field := k!"ramBlockStatusControl", path := (.first [k!"RAM-BLOCK-STATUS-CONTROL"] .nil), item := (.prim .lit) },
   /- 1627 -/ { field := k!"readonly", path := (.first [k!"READONLY"] .nil), item := (.prim .boolean) },
   /- 1628 -/ { field := k!"reliability", path := (.first [k!"RELIABILITY"] .nil), item := (.prim .lit) },
   /- 1629 -/ { field := k!"resistantToChangedSw", path := (.first [k!"RESISTANT-TO-CHANGED-SW"] .nil), item := (.prim .boolean) },
   /- 1630 -/ { field := k!"restoreAtStart", path := (.first [k!"RESTORE-AT-START"] .nil), item := (.prim .boolean) },
   /- 1631 -/ { field := k!"storeAtShutdown", path := (.first [k!"STORE-AT-SHUTDOWN"] .nil), item := (.prim .boolean) },
   /- 1632 -/ { field := k!"storeCyclic", path := (.first [k!"STORE-CYCLIC"] .nil), item := (.prim .boolean) },
   /- 1633 -/ { field := k!"storeEmergency", path := (.first [k!"STORE-EMERGENCY"] .nil), item := (.prim .boolean) },
   /- 1634 -/ { field := k!"storeImmediate", path := (.first [k!"STORE-IMMEDIATE"] .nil), item := (.prim .boolean) },
   /- 1635 -/ { field := k!"useAutoValidationAtShutDown", path := (.first [k!"USE-AUTO-VALIDATION-AT-SHUT-DOWN"] .nil), item := (.prim .boolean) },
   /- 1636 -/ { field := k!"useCRCCompMechanism", path := (.first [k!"USE-CRC-COMP-MECHANISM"] .nil), item := (.prim .boolean) },
   /- 1637 -/ { field := k!"writeOnlyOnce", path := (.first [k!"WRITE-ONLY-ONCE"] .nil), item := (.prim .boolean) },
   /- 1638 -/ { field := k!"writeVerification", path := (.first [k!"WRITE-VERIFICATION"] .nil), item := (.prim .boolean) },
   /- 1639 -/ { field := k!"writingFrequency", path := (.first [k!"WRITING-FREQUENCY"] .nil), item := (.prim .positive) },
   /- 1640 -/ { field := k!"writingPriority", path := (.first [k!"WRITING-PRIORITY"] .nil), item := (.prim .lit) }]

/-- `readNvBlockDescriptor`, `parser/arxml_parser.py:1095-1146` (the `NvBlockNeeds` it makes); also `readBswServiceDependencyServiceNeeds`, `readSwcServiceDependencyServiceNeeds` -/
def readNvBlockDescriptor_NvBlockNeeds : List RSlot :=
  [/- 1126 -/ { field := k!"short_name", path := (.first [k!"SHORT-NAME"] .nil), item := .name, req := .always }] ++
  /- 1127 -/ readNvBlockNeeds

/-- `readObdPidServiceNeeds`, `parser/arxml_parser.py:1655-1656`; also 5 other methods -/
def readObdPidServiceNeeds : List RSlot :=
  /- 1656 -/ readBswMgrNeeds

/-- `readBswServiceDependencyServiceNeeds`, `parser/arxml_parser.py:1452-1581` (the `ObdPidServiceNeeds` it makes); also `readDiagEventDebounceAlgorithm`, `readSwcServiceDependencyServiceNeeds` -/
def readBswServiceDependencyServiceNeeds_ObdPidServiceNeeds : List RSlot :=
  [/- 1548 -/ { field := k!"short_name", path := (.first [k!"SHORT-NAME"] .nil), item := .name, req := .always }] ++
  /- 1549 -/ readObdPidServiceNeeds

/-- `readObdMonitorServiceNeeds`, `parser/arxml_parser.py:1648-1653` -/
def readObdMonitorServiceNeeds : List RSlot :=
  /- 1649 -/ readBswMgrNeeds ++
  [/- 1650 -/ { field := k!"applicationDataTypeRef", path := (.first [k!"APPLICATION-DATA-TYPE-REF"] .nil), item := (.prim .ref) },
   /- 1651 -/ { field := k!"eventNeedsRef", path := (.first [k!"EVENT-NEEDS-REF"] .nil), item := (.prim .ref) },
   /- 1652 -/ { field := k!"unitAndScalingId", path := (.first [k!"UNIT-AND-SCALING-ID"] .nil), item := (.prim .positive) },
   /- 1653 -/ { field := k!"updateKind", path := (.first [k!"UPDATE-KIND"] .nil), item := (.prim .lit) }]

/-- `readBswServiceDependencyServiceNeeds`, `parser/arxml_parser.py:1452-1581` (the `ObdMonitorServiceNeeds` it makes); also `readSwcServiceDependencyServiceNeeds` -/
def readBswServiceDependencyServiceNeeds_ObdMonitorServiceNeeds : List RSlot :=
  [/- 1544 -/ { field := k!"short_name", path := (.first [k!"SHORT-NAME"] .nil), item := .name, req := .always }] ++
  /- 1545 -/ readObdMonitorServiceNeeds

/-- `readObdRatioDenominatorNeeds`, `parser/arxml_parser.py:1667-1669` -/
def readObdRatioDenominatorNeeds : List RSlot :=
  /- 1668 -/ readTrigger ++
  [/- 1669 -/ { field := k!"denominatorCondition", path := (.first [k!"DENOMINATOR-CONDITION"] .nil), item := (.prim .lit) }]

/-- `readBswServiceDependencyServiceNeeds`, `parser/arxml_parser.py:1452-1581` (the `ObdRatioDenominatorNeeds` it makes); also `readSwcServiceDependencyServiceNeeds` -/
def readBswServiceDependencyServiceNeeds_ObdRatioDenominatorNeeds : List RSlot :=
  [/- 1560 -/ { field := k!"short_name", path := (.first [k!"SHORT-NAME"] .nil), item := .name, req := .always }] ++
  /- 1561 -/ readObdRatioDenominatorNeeds

/-- `readObdRatioServiceNeeds`, `parser/arxml_parser.py:1661-1665` -/
def readObdRatioServiceNeeds : List RSlot :=
  /- 1662 -/ readBswMgrNeeds ++
  [/- 1663 -/ { field := k!"connectionType", path := (.first [k!"CONNECTION-TYPE"] .nil), item := (.prim .lit) },
   /- 1664 -/ { field := k!"rateBasedMonitoredEventRef", path := (.first [k!"RATE-BASED-MONITORED-EVENT-REF"] .nil), item := (.prim .ref) },
   /- 1665 -/ { field := k!"usedFidRef", path := (.first [k!"USED-FID-REF"] .nil), item := (.prim .ref) }]

/-- `readBswServiceDependencyServiceNeeds`, `parser/arxml_parser.py:1452-1581` (the `ObdRatioServiceNeeds` it makes); also `readSwcServiceDependencyServiceNeeds` -/
def readBswServiceDependencyServiceNeeds_ObdRatioServiceNeeds : List RSlot :=
  [/- 1556 -/ { field := k!"short_name", path := (.first [k!"SHORT-NAME"] .nil), item := .name, req := .always }] ++
  /- 1557 -/ readObdRatioServiceNeeds

/-- `readSecureOnBoardCommunicationNeeds`, `parser/arxml_parser.py:1687-1689` -/
def readSecureOnBoardCommunicationNeeds : List RSlot :=
  /- 1688 -/ readTrigger ++
  [/- 1689 -/ { field := k!"verificationStatusIndicationMode", path := (.first [k!"VERIFICATION-STATUS-INDICATION-MODE"] .nil), item := (.prim .lit) }]

/-- `readBswServiceDependencyServiceNeeds`, `parser/arxml_parser.py:1452-1581` (the `SecureOnBoardCommunicationNeeds` it makes); also `readSwcServiceDependencyServiceNeeds` -/
def readBswServiceDependencyServiceNeeds_SecureOnBoardCommunicationNeeds : List RSlot :=
  [/- 1572 -/ { field := k!"short_name", path := (.first [k!"SHORT-NAME"] .nil), item := .name, req := .always }] ++
  /- 1573 -/ readSecureOnBoardCommunicationNeeds

/-- `readSupervisedEntityNeeds`, `parser/arxml_parser.py:1813-1822` -/
def readSupervisedEntityNeeds : List RSlot :=
  /- 1814 -/ readTrigger ++
  [/- 1815 -/ { field := k!"activateAtStart", path := (.first [k!"ACTIVATE-AT-START"] .nil), item := (.prim .boolean) },
   /- 1817 -/ { field := k!"checkpointsRefs", path := (.all k!"CHECKPOINTSS" (.all k!"SUPERVISED-ENTITY-CHECKPOINT-NEEDS-REF-CONDITIONAL" (.all k!"SUPERVISED-ENTITY-CHECKPOINT-NEEDS-REF" .nil))), item := (.prim .ref) },
   /- 1818 -/ { field := k!"enableDeactivation", path := (.first [k!"ENABLE-DEACTIVATION"] .nil), item := (.prim .boolean) },
   /- 1819 -/ { field := k!"expectedAliveCycle", path := (.first [k!"EXPECTED-ALIVE-CYCLE"] .nil), item := (.prim .time) },
   /- 1820 -/ { field := k!"maxAliveCycle", path := (.first [k!"MAX-ALIVE-CYCLE"] .nil), item := (.prim .time) },
   /- 1821 -/ { field := k!"minAliveCycle", path := (.first [k!"MIN-ALIVE-CYCLE"] .nil), item := (.prim .time) },
   /- 1822 -/ { field := k!"toleratedFailedCycles", path := (.first [k!"TOLERATED-FAILED-CYCLES"] .nil), item := (.prim .positive) }]

/-- `readBswServiceDependencyServiceNeeds`, `parser/arxml_parser.py:1452-1581` (the `SupervisedEntityNeeds` it makes) -/
def readBswServiceDependencyServiceNeeds_SupervisedEntityNeeds : List RSlot :=
  [/- 1532 -/ { field := k!"short_name", path := (.first [k!"SHORT-NAME"] .nil), item := .name, req := .always }] ++
  /- 1533 -/ readSupervisedEntityNeeds

/-- `readBulkNvDataDescriptor`, `parser/arxml_parser.py:1082-1093` -/
def readBulkNvDataDescriptor : List RSlot :=
  /- 1083 -/ readIdentifiable ++
  [/- 1087 -/ { field := 0, path := (.first [k!"BULK-NV-BLOCK"] .nil), item := (.want k!"VARIABLE-DATA-PROTOTYPE" .attributeError) },
   /- 1089 -/ { field := k!"bulkNvBlock", path := (.first [k!"BULK-NV-BLOCK"] (.first [k!"VARIABLE-DATA-PROTOTYPE"] .nil)), item := (.objs [(k!"VARIABLE-DATA-PROTOTYPE", k!"readNvBlockDescriptor_VariableDataPrototype")]) },
   /- 1093 -/ { field := k!"nvBlockDataMappings", path := (.all k!"NV-BLOCK-DATA-MAPPINGS" (.all k!"NV-BLOCK-DATA-MAPPING" .nil)), item := (.objs [(k!"NV-BLOCK-DATA-MAPPING", k!"readNvBlockDescriptor_NvBlockDataMapping")]) }]

/-- `readNvBlockDataMapping`, `parser/arxml_parser.py:1074-1080` -/
def readNvBlockDataMapping : List RSlot :=
  [/- 1075 -/ { field := k!"bitfieldTextTableMaskNvBlockDescriptor", path := (.first [k!"BITFIELD-TEXT-TABLE-MASK-NV-BLOCK-DESCRIPTOR"] .nil), item := (.prim .positive) },
   /- 1076 -/ { field := k!"bitfieldTextTableMaskPortPrototype", path := (.first [k!"BITFIELD-TEXT-TABLE-MASK-PORT-PROTOTYPE"] .nil), item := (.prim .positive) },
   /- 1077 -/ { field := k!"nvRamBlockElement", path := (.first [k!"NV-RAM-BLOCK-ELEMENT"] .nil), item := (.objs [(k!"NV-RAM-BLOCK-ELEMENT", k!"getAutosarVariableRef_AutosarVariableRef")]) },
   /- 1078 -/ { field := k!"readNvData", path := (.first [k!"READ-NV-DATA"] .nil), item := (.objs [(k!"READ-NV-DATA", k!"getAutosarVariableRef_AutosarVariableRef")]) },
   /- 1079 -/ { field := k!"writtenNvData", path := (.first [k!"WRITTEN-NV-DATA"] .nil), item := (.objs [(k!"WRITTEN-NV-DATA", k!"getAutosarVariableRef_AutosarVariableRef")]) },
   /- 1080 -/ { field := k!"writtenReadNvData", path := (.first [k!"WRITTEN-READ-NV-DATA"] .nil), item := (.objs [(k!"WRITTEN-READ-NV-DATA", k!"getAutosarVariableRef_AutosarVariableRef")]) }]

/-- `readNvBlockDescriptor`, `parser/arxml_parser.py:1095-1146` (the `NvBlockDataMapping` it makes); also `readBulkNvDataDescriptor` -/
def readNvBlockDescriptor_NvBlockDataMapping : List RSlot :=
  /- 1122 -/ readNvBlockDataMapping

end Verif.Gen.R
