import Verif.Gen.Read6
-- generated by tools/gen_codec.py; do not edit
namespace Verif.Gen.R
open Verif Verif.Model

/-- `readInternalConstrs`, `parser/arxml_parser.py:5411-5423` (the `InternalConstrs` it makes) -/
def readInternalConstrs_InternalConstrs : List RSlot :=
  [/- 5415 -/ { field := k!"timestamp", path := .nil, item := (.attr k!"T" .raw) },
   /- 5415 -/ { field := k!"uuid", path := .nil, item := (.attr k!"UUID" .raw) },
   /- 5416 -/ { field := k!"lowerLimit", path := (.first [k!"LOWER-LIMIT"] .nil), item := (.prim .limit) },
   /- 5417 -/ { field := k!"upperLimit", path := (.first [k!"UPPER-LIMIT"] .nil), item := (.prim .limit) },
   /- 5419 -/ { field := k!"scaleConstrs", path := (.all k!"SCALE-CONSTRS" (.all k!"SCALE-CONSTR" .nil)), item := (.objs [(k!"SCALE-CONSTR", k!"readScaleConstr_ScaleConstr")]) },
   /- 5420 -/ { field := k!"maxGradient", path := (.first [k!"MAX-GRADIENT"] .nil), item := (.prim .numerical) },
   /- 5421 -/ { field := k!"maxDiff", path := (.first [k!"MAX-DIFF"] .nil), item := (.prim .numerical) },
   /- 5422 -/ { field := k!"monotony", path := (.first [k!"MONOTONY"] .nil), item := (.prim .lit) }]

/-- `readModeSwitchedAckEvent`, `parser/arxml_parser.py:3507-3510`; also `readInternalTriggerOccurredEvent` -/
def readModeSwitchedAckEvent : List RSlot :=
  /- 3509 -/ readRTEEvent ++
  [/- 3510 -/ { field := k!"eventSourceRef", path := (.first [k!"EVENT-SOURCE-REF"] .nil), item := (.prim .ref) }]

/-- `readJ1939NmNode`, `parser/arxml_parser.py:6810-6814` -/
def readJ1939NmNode : List RSlot :=
  /- 6812 -/ readNmNode ++
  [/- 6813 -/ { field := k!"addressConfigurationCapability", path := (.first [k!"ADDRESS-CONFIGURATION-CAPABILITY"] .nil), item := (.prim .lit) },
   /- 6814 -/ { field := k!"nodeName", path := (.first [k!"NODE-NAME"] .nil), item := (.objs [(k!"NODE-NAME", k!"getChildElementJ1939NodeName_J1939NodeName")]) }]

/-- `readKeywordClassifications`, `parser/arxml_parser.py:7305-7307` -/
def readKeywordClassifications : List RSlot :=
  [/- 7307 -/ { field := k!"classifications", path := (.all k!"CLASSIFICATIONS" (.all k!"CLASSIFICATION" .nil)), item := (.prim .litPlain) }]

/-- `readKeyword`, `parser/arxml_parser.py:7309-7313` -/
def readKeyword : List RSlot :=
  /- 7311 -/ readIdentifiable ++
  [/- 7312 -/ { field := k!"abbrName", path := (.first [k!"ABBR-NAME"] .nil), item := (.prim .lit) }] ++
  /- 7313 -/ readKeywordClassifications

/-- `readKeywordSetKeywords`, `parser/arxml_parser.py:7315-7322` (the `Keyword` it makes) -/
def readKeywordSetKeywords_Keyword : List RSlot :=
  [/- 7319 -/ { field := k!"short_name", path := (.first [k!"SHORT-NAME"] .nil), item := .name, req := .always }] ++
  /- 7320 -/ readKeyword

/-- `readLLongName`, `parser/arxml_parser.py:953-972` (the `LLongName` it makes) -/
def readLLongName_LLongName : List RSlot :=
  [/- 956 -/ { field := k!"timestamp", path := .nil, item := (.attr k!"T" .raw) },
   /- 956 -/ { field := k!"uuid", path := .nil, item := (.attr k!"UUID" .raw) },
   /- 957 -/ { field := k!"value", path := .nil, item := (.prim .raw) },
   /- 959 -/ { field := k!"l", path := .nil, item := (.attr k!"L" .raw) },
   /- 961 -/ { field := k!"sup", path := .nil, item := (.attr k!"SUP" .lit) },
   /- 963 -/ { field := k!"sub", path := .nil, item := (.attr k!"SUB" .lit) },
   /- 967 -/ { field := k!"e", path := (.all k!"E" .nil), item := (.objs [(k!"E", k!"readEmphasisText_EmphasisText")]), last := true },
   /- 969 -/ { field := k!"ie", path := (.all k!"IE" .nil), item := (.objs [(k!"IE", k!"readIndexEntry_IndexEntry")]), last := true },
   /- 971 -/ { field := k!"tt", path := (.all k!"TT" .nil), item := (.objs [(k!"TT", k!"readTt_Tt")]), last := true }]

/-- `readLifeCycleInfoUseInsteadRefs`, `parser/arxml_parser.py:8876-8878` -/
def readLifeCycleInfoUseInsteadRefs : List RSlot :=
  [/- 8878 -/ { field := k!"useInsteadRefs", path := (.all k!"USE-INSTEAD-REFS" (.all k!"USE-INSTEAD-REF" .nil)), item := (.prim .ref) }]

/-- `readLifeCycleInfo`, `parser/arxml_parser.py:8880-8886` -/
def readLifeCycleInfo : List RSlot :=
  [/- 8881 -/ { field := k!"timestamp", path := .nil, item := (.attr k!"T" .raw) },
   /- 8881 -/ { field := k!"uuid", path := .nil, item := (.attr k!"UUID" .raw) },
   /- 8882 -/ { field := k!"lcObjectRef", path := (.first [k!"LC-OBJECT-REF"] .nil), item := (.prim .ref) },
   /- 8883 -/ { field := k!"lcStateRef", path := (.first [k!"LC-STATE-REF"] .nil), item := (.prim .ref) },
   /- 8884 -/ { field := k!"periodBegin", path := (.first [k!"PERIOD-BEGIN"] .nil), item := (.objs [(k!"PERIOD-BEGIN", k!"getLifeCyclePeriod_LifeCyclePeriod")]) },
   /- 8885 -/ { field := k!"remark", path := (.first [k!"REMARK"] .nil), item := (.objs [(k!"REMARK", k!"getDocumentationBlock_DocumentationBlock")]) }] ++
  /- 8886 -/ readLifeCycleInfoUseInsteadRefs

/-- `readLifeCycleInfoSetLifeCycleInfos`, `parser/arxml_parser.py:8888-8896` (the `LifeCycleInfo` it makes) -/
def readLifeCycleInfoSetLifeCycleInfos_LifeCycleInfo : List RSlot :=
  /- 8893 -/ readLifeCycleInfo

/-- `readLinFrameTriggering`, `parser/arxml_parser.py:5770-5774` -/
def readLinFrameTriggering : List RSlot :=
  /- 5772 -/ readFrameTriggering ++
  [/- 5773 -/ { field := k!"identifier", path := (.first [k!"IDENTIFIER"] .nil), item := (.prim .numerical) },
   /- 5774 -/ { field := k!"linChecksum", path := (.first [k!"LIN-CHECKSUM"] .nil), item := (.prim .lit) }]

/-- `readLinScheduleTableTableEntries`, `parser/arxml_parser.py:5894-5900` -/
def readLinScheduleTableTableEntries : List RSlot :=
  [/- 5898 -/ { field := k!"tableEntries", path := (.all k!"TABLE-ENTRYS" (.all k!"APPLICATION-ENTRY" .nil)), item := (.objs [(k!"APPLICATION-ENTRY", k!"getApplicationEntry_ApplicationEntry")]) },
   /- 5900 -/ { field := 0, path := (.all k!"TABLE-ENTRYS" (.all 0 .nil)), item := (.guard [k!"APPLICATION-ENTRY"] .unsupported) }]

/-- `readLinScheduleTable`, `parser/arxml_parser.py:5902-5906` -/
def readLinScheduleTable : List RSlot :=
  /- 5903 -/ readIdentifiable ++
  [/- 5904 -/ { field := k!"resumePosition", path := (.first [k!"RESUME-POSITION"] .nil), item := (.prim .lit) },
   /- 5905 -/ { field := k!"runMode", path := (.first [k!"RUN-MODE"] .nil), item := (.prim .lit) }] ++
  /- 5906 -/ readLinScheduleTableTableEntries

/-- `readLinPhysicalChannelScheduleTables`, `parser/arxml_parser.py:5908-5915` (the `LinScheduleTable` it makes) -/
def readLinPhysicalChannelScheduleTables_LinScheduleTable : List RSlot :=
  [/- 5912 -/ { field := k!"short_name", path := (.first [k!"SHORT-NAME"] .nil), item := .name, req := .always }] ++
  /- 5913 -/ readLinScheduleTable

/-- `readTpAddress`, `parser/arxml_parser.py:7068-7070` -/
def readTpAddress : List RSlot :=
  /- 7069 -/ readIdentifiable ++
  [/- 7070 -/ { field := k!"tpAddress", path := (.first [k!"TP-ADDRESS"] .nil), item := (.prim .integer) }]

/-- `readLinTpConfigTpAddresses`, `parser/arxml_parser.py:7072-7079` (the `TpAddress` it makes) -/
def readLinTpConfigTpAddresses_TpAddress : List RSlot :=
  [/- 7076 -/ { field := k!"short_name", path := (.first [k!"SHORT-NAME"] .nil), item := .name, req := .always }] ++
  /- 7077 -/ readTpAddress

/-- `readLinTpConnection`, `parser/arxml_parser.py:7081-7090` -/
def readLinTpConnection : List RSlot :=
  /- 7082 -/ readTpConnection ++
  [/- 7083 -/ { field := k!"dataPduRef", path := (.first [k!"DATA-PDU-REF"] .nil), item := (.prim .ref) },
   /- 7084 -/ { field := k!"flowControlRef", path := (.first [k!"FLOW-CONTROL-REF"] .nil), item := (.prim .ref) },
   /- 7085 -/ { field := k!"linTpNSduRef", path := (.first [k!"LIN-TP-N-SDU-REF"] .nil), item := (.prim .ref) }] ++
  /- 7086 -/ readTpConnectionReceiverRefs ++
  [/- 7087 -/ { field := k!"timeoutAs", path := (.first [k!"TIMEOUT-AS"] .nil), item := (.prim .time) },
   /- 7088 -/ { field := k!"timeoutCr", path := (.first [k!"TIMEOUT-CR"] .nil), item := (.prim .time) },
   /- 7089 -/ { field := k!"timeoutCs", path := (.first [k!"TIMEOUT-CS"] .nil), item := (.prim .time) },
   /- 7090 -/ { field := k!"transmitterRef", path := (.first [k!"TRANSMITTER-REF"] .nil), item := (.prim .ref) }]

/-- `readLinTpConfigTpConnections`, `parser/arxml_parser.py:7092-7100` (the `LinTpConnection` it makes) -/
def readLinTpConfigTpConnections_LinTpConnection : List RSlot :=
  /- 7097 -/ readLinTpConnection

/-- `readLinTpNode`, `parser/arxml_parser.py:7102-7108` -/
def readLinTpNode : List RSlot :=
  /- 7103 -/ readIdentifiable ++
  [/- 7104 -/ { field := k!"connectorRef", path := (.first [k!"CONNECTOR-REF"] .nil), item := (.prim .ref) },
   /- 7105 -/ { field := k!"dropNotRequestedNad", path := (.first [k!"DROP-NOT-REQUESTED-NAD"] .nil), item := (.prim .boolean) },
   /- 7106 -/ { field := k!"p2Max", path := (.first [k!"P-2-MAX"] .nil), item := (.prim .time) },
   /- 7107 -/ { field := k!"p2Timing", path := (.first [k!"P-2-TIMING"] .nil), item := (.prim .time) },
   /- 7108 -/ { field := k!"tpAddressRef", path := (.first [k!"TP-ADDRESS-REF"] .nil), item := (.prim .ref) }]

/-- `readLinTpConfigTpNodes`, `parser/arxml_parser.py:7110-7117` (the `LinTpNode` it makes) -/
def readLinTpConfigTpNodes_LinTpNode : List RSlot :=
  [/- 7114 -/ { field := k!"short_name", path := (.first [k!"SHORT-NAME"] .nil), item := .name, req := .always }] ++
  /- 7115 -/ readLinTpNode

/-- `readMcDataAccessDetails`, `parser/arxml_parser.py:2872-2880` -/
def readMcDataAccessDetails : List RSlot :=
  [/- 2876 -/ { field := k!"rteEventIRefs", path := (.all k!"RTE-EVENT-IREFS" (.all k!"RTE-EVENT-IREF" .nil)), item := (.objs [(k!"RTE-EVENT-IREF", k!"readMcDataAccessDetails_RteEventInEcuInstanceRef")]) },
   /- 2880 -/ { field := k!"variableAccessIRefs", path := (.all k!"VARIABLE-ACCESS-IREFS" (.all k!"VARIABLE-ACCESS-IREF" .nil)), item := (.objs [(k!"VARIABLE-ACCESS-IREF", k!"readMcDataAccessDetails_VariableAccessInEcuInstanceRef")]) }]

/-- `readRteEventInEcuInstanceRef`, `parser/arxml_parser.py:2862-2865` -/
def readRteEventInEcuInstanceRef : List RSlot :=
  [/- 2863 -/ { field := k!"contextRootCompositionRef", path := (.first [k!"CONTEXT-ROOT-COMPOSITION-REF"] .nil), item := (.prim .ref) },
   /- 2864 -/ { field := k!"contextAtomicComponentRef", path := (.first [k!"CONTEXT-ATOMIC-COMPONENT-REF"] .nil), item := (.prim .ref) },
   /- 2865 -/ { field := k!"targetRteEventRef", path := (.first [k!"TARGET-RTE-EVENT-REF"] .nil), item := (.prim .ref) }]

/-- `readMcDataAccessDetails`, `parser/arxml_parser.py:2872-2880` (the `RteEventInEcuInstanceRef` it makes) -/
def readMcDataAccessDetails_RteEventInEcuInstanceRef : List RSlot :=
  /- 2875 -/ readRteEventInEcuInstanceRef

/-- `readVariableAccessInEcuInstanceRef`, `parser/arxml_parser.py:2867-2870` -/
def readVariableAccessInEcuInstanceRef : List RSlot :=
  [/- 2868 -/ { field := k!"contextRootCompositionRef", path := (.first [k!"CONTEXT-ROOT-COMPOSITION-REF"] .nil), item := (.prim .ref) },
   /- 2869 -/ { field := k!"contextAtomicComponentRef", path := (.first [k!"CONTEXT-ATOMIC-COMPONENT-REF"] .nil), item := (.prim .ref) },
   /- 2870 -/ { field := k!"targetVariableAccessRef", path := (.first [k!"TARGET-VARIABLE-ACCESS-REF"] .nil), item := (.prim .ref) }]

/-- `readMcDataAccessDetails`, `parser/arxml_parser.py:2872-2880` (the `VariableAccessInEcuInstanceRef` it makes) -/
def readMcDataAccessDetails_VariableAccessInEcuInstanceRef : List RSlot :=
  /- 2879 -/ readVariableAccessInEcuInstanceRef

/-- `readMcDataInstance`, `parser/arxml_parser.py:2882-2915` -/
def readMcDataInstance : List RSlot :=
  [/- 2883 -/ { field := k!"arraySize", path := (.first [k!"ARRAY-SIZE"] .nil), item := (.prim .positive) },
   /- 2884 -/ { field := k!"displayIdentifier", path := (.first [k!"DISPLAY-IDENTIFIER"] .nil), item := (.prim .lit) },
   /- 2885 -/ { field := k!"flatMapEntryRef", path := (.first [k!"FLAT-MAP-ENTRY-REF"] .nil), item := (.prim .ref) },
   /- 2890 -/ { field := k!"instanceInMemory", path := (.first [k!"INSTANCE-IN-MEMORY"] .nil), item := (.objs [(k!"INSTANCE-IN-MEMORY", k!"readMcDataInstance_ImplementationElementInParameterInstanceRef")]) },
   /- 2891 -/ { field := k!"role", path := (.first [k!"ROLE"] .nil), item := (.prim .lit) },
   /- 2892 -/ { field := k!"symbol", path := (.first [k!"SYMBOL"] .nil), item := (.prim .lit) },
   /- 2897 -/ { field := k!"mcDataAccessDetails", path := (.first [k!"MC-DATA-ACCESS-DETAILS"] .nil), item := (.objs [(k!"MC-DATA-ACCESS-DETAILS", k!"readMcDataInstance_McDataAccessDetails")]) },
   /- 2899 -/ { field := k!"resultingProperties", path := (.first [k!"RESULTING-PROPERTIES"] .nil), item := (.objs [(k!"RESULTING-PROPERTIES", k!"readMcDataInstance_SwDataDefProps")]) },
   /- 2904 -/ { field := k!"resultingRptSwPrototypingAccess", path := (.first [k!"RESULTING-RPT-SW-PROTOTYPING-ACCESS"] .nil), item := (.objs [(k!"RESULTING-RPT-SW-PROTOTYPING-ACCESS", k!"readMcDataInstance_RptSwPrototypingAccess")]) },
   /- 2909 -/ { field := k!"rptImplPolicy", path := (.first [k!"RPT-IMPL-POLICY"] .nil), item := (.objs [(k!"RPT-IMPL-POLICY", k!"readRptComponent_RptImplPolicy")]) },
   /- 2913 -/ { field := k!"mcDataAssignments", path := (.all k!"MC-DATA-ASSIGNMENTS" (.all k!"ROLE-BASED-MC-DATA-ASSIGNMENT" .nil)), item := (.objs [(k!"ROLE-BASED-MC-DATA-ASSIGNMENT", k!"readRptComponent_RoleBasedMcDataAssignment")]) },
   /- 2915 -/ { field := k!"subElements", path := (.all k!"SUB-ELEMENTS" (.all k!"MC-DATA-INSTANCE" .nil)), item := (.objs [(k!"MC-DATA-INSTANCE", k!"readMcSupportData_McDataInstance")]), named := true }]

/-- `readMcDataInstance`, `parser/arxml_parser.py:2882-2915` (the `ImplementationElementInParameterInstanceRef` it makes) -/
def readMcDataInstance_ImplementationElementInParameterInstanceRef : List RSlot :=
  /- 2889 -/ readImplementationElementInParameterInstanceRef

/-- `readMcDataInstance`, `parser/arxml_parser.py:2882-2915` (the `McDataAccessDetails` it makes) -/
def readMcDataInstance_McDataAccessDetails : List RSlot :=
  /- 2896 -/ readMcDataAccessDetails

/-- `readMcSupportData`, `parser/arxml_parser.py:2824-2841` (the `McDataInstance` it makes); also `readMcDataInstance` -/
def readMcSupportData_McDataInstance : List RSlot :=
  [/- 2830 -/ { field := k!"short_name", path := (.first [k!"SHORT-NAME"] .nil), item := .name, req := .always }] ++
  /- 2831 -/ readMcDataInstance

/-- `readRoleBasedMcDataAssignment`, `parser/arxml_parser.py:2917-2922` -/
def readRoleBasedMcDataAssignment : List RSlot :=
  [/- 2919 -/ { field := k!"executionContextRefs", path := (.all k!"EXECUTION-CONTEXT-REFS" (.all k!"EXECUTION-CONTEXT-REF" .nil)), item := (.prim .ref) },
   /- 2921 -/ { field := k!"mcDataInstanceRefs", path := (.all k!"MC-DATA-INSTANCE-REFS" (.all k!"MC-DATA-INSTANCE-REF" .nil)), item := (.prim .ref) },
   /- 2922 -/ { field := k!"role", path := (.first [k!"ROLE"] .nil), item := (.prim .lit) }]

/-- `readRptComponent`, `parser/arxml_parser.py:2980-2992` (the `RoleBasedMcDataAssignment` it makes); also `readMcDataInstance`, `readRptExecutableEntity`, `readRptExecutableEntityEvent` -/
def readRptComponent_RoleBasedMcDataAssignment : List RSlot :=
  /- 2983 -/ readRoleBasedMcDataAssignment

/-- `readRptImplPolicy`, `parser/arxml_parser.py:2929-2931` -/
def readRptImplPolicy : List RSlot :=
  [/- 2930 -/ { field := k!"rptEnablerImplType", path := (.first [k!"RPT-ENABLER-IMPL-TYPE"] .nil), item := (.prim .lit) },
   /- 2931 -/ { field := k!"rptPreparationLevel", path := (.first [k!"RPT-PREPARATION-LEVEL"] .nil), item := (.prim .lit) }]

/-- `readRptComponent`, `parser/arxml_parser.py:2980-2992` (the `RptImplPolicy` it makes); also `readMcDataInstance`, `readRptExecutableEntityEvent` -/
def readRptComponent_RptImplPolicy : List RSlot :=
  /- 2988 -/ readRptImplPolicy

/-- `readRptSwPrototypingAccess`, `parser/arxml_parser.py:2924-2927` -/
def readRptSwPrototypingAccess : List RSlot :=
  [/- 2925 -/ { field := k!"rptHookAccess", path := (.first [k!"RPT-HOOK-ACCESS"] .nil), item := (.prim .lit) },
   /- 2926 -/ { field := k!"rptReadAccess", path := (.first [k!"RPT-READ-ACCESS"] .nil), item := (.prim .lit) },
   /- 2927 -/ { field := k!"rptWriteAccess", path := (.first [k!"RPT-WRITE-ACCESS"] .nil), item := (.prim .lit) }]

/-- `readMcDataInstance`, `parser/arxml_parser.py:2882-2915` (the `RptSwPrototypingAccess` it makes) -/
def readMcDataInstance_RptSwPrototypingAccess : List RSlot :=
  /- 2903 -/ readRptSwPrototypingAccess

/-- `readMcFunctionDataRefSet`, `parser/arxml_parser.py:9350-9357` -/
def readMcFunctionDataRefSet : List RSlot :=
  [/- 9355 -/ { field := k!"flatMapEntryRefs", path := (.first [k!"MC-FUNCTION-DATA-REF-SET-VARIANTS", k!"MC-FUNCTION-DATA-REF-SET-CONDITIONAL"] (.all k!"FLAT-MAP-ENTRY-REFS" (.all k!"FLAT-MAP-ENTRY-REF" .nil))), item := (.prim .ref) },
   /- 9357 -/ { field := k!"mcDataInstanceRefs", path := (.first [k!"MC-FUNCTION-DATA-REF-SET-VARIANTS", k!"MC-FUNCTION-DATA-REF-SET-CONDITIONAL"] (.all k!"MC-DATA-INSTANCE-REFS" (.all k!"MC-DATA-INSTANCE-REF" .nil))), item := (.prim .ref) }]

/-- `readMcFunction`, `parser/arxml_parser.py:9320-9348` (the `McFunctionDataRefSet` it makes) -/
def readMcFunction_McFunctionDataRefSet : List RSlot :=
  /- 9325 -/ readMcFunctionDataRefSet

/-- `readMcGroupDataRefSet`, `parser/arxml_parser.py:9376-9383` -/
def readMcGroupDataRefSet : List RSlot :=
  [/- 9381 -/ { field := k!"flatMapEntryRefs", path := (.first [k!"MC-GROUP-DATA-REF-SET-VARIANTS", k!"MC-GROUP-DATA-REF-SET-CONDITIONAL"] (.all k!"FLAT-MAP-ENTRY-REFS" (.all k!"FLAT-MAP-ENTRY-REF" .nil))), item := (.prim .ref) },
   /- 9383 -/ { field := k!"mcDataInstanceRefs", path := (.first [k!"MC-GROUP-DATA-REF-SET-VARIANTS", k!"MC-GROUP-DATA-REF-SET-CONDITIONAL"] (.all k!"MC-DATA-INSTANCE-REFS" (.all k!"MC-DATA-INSTANCE-REF" .nil))), item := (.prim .ref) }]

/-- `readMcGroup`, `parser/arxml_parser.py:9359-9374` (the `McGroupDataRefSet` it makes) -/
def readMcGroup_McGroupDataRefSet : List RSlot :=
  /- 9366 -/ readMcGroupDataRefSet

/-- `readMcParameterElementGroup`, `parser/arxml_parser.py:2853-2856` -/
def readMcParameterElementGroup : List RSlot :=
  [/- 2854 -/ { field := k!"shortLabel", path := (.first [k!"SHORT-LABEL"] .nil), item := (.prim .lit) },
   /- 2855 -/ { field := k!"ramLocationRef", path := (.first [k!"RAM-LOCATION-REF"] .nil), item := (.prim .ref) },
   /- 2856 -/ { field := k!"romLocationRef", path := (.first [k!"ROM-LOCATION-REF"] .nil), item := (.prim .ref) }]

/-- `readMcSwEmulationMethodSupport`, `parser/arxml_parser.py:2843-2851` -/
def readMcSwEmulationMethodSupport : List RSlot :=
  [/- 2844 -/ { field := k!"shortLabel", path := (.first [k!"SHORT-LABEL"] .nil), item := (.prim .lit) },
   /- 2845 -/ { field := k!"category", path := (.first [k!"CATEGORY"] .nil), item := (.prim .lit) },
   /- 2846 -/ { field := k!"baseReferenceRef", path := (.first [k!"BASE-REFERENCE-REF"] .nil), item := (.prim .ref) },
   /- 2850 -/ { field := k!"elementGroups", path := (.all k!"ELEMENT-GROUPS" (.all k!"MC-PARAMETER-ELEMENT-GROUP" .nil)), item := (.objs [(k!"MC-PARAMETER-ELEMENT-GROUP", k!"readMcSwEmulationMethodSupport_McParameterElementGroup")]) },
   /- 2851 -/ { field := k!"referenceTableRef", path := (.first [k!"REFERENCE-TABLE-REF"] .nil), item := (.prim .ref) }]

/-- `readMcSupportData`, `parser/arxml_parser.py:2824-2841` (the `McSwEmulationMethodSupport` it makes) -/
def readMcSupportData_McSwEmulationMethodSupport : List RSlot :=
  /- 2827 -/ readMcSwEmulationMethodSupport

/-- `readRptSupportData`, `parser/arxml_parser.py:2994-3002` -/
def readRptSupportData : List RSlot :=
  [/- 2996 -/ { field := k!"executionContexts", path := (.all k!"EXECUTION-CONTEXTS" (.all k!"RPT-EXECUTION-CONTEXT" .nil)), item := (.objs [(k!"RPT-EXECUTION-CONTEXT", k!"readRptSupportData_RptExecutionContext")]), named := true },
   /- 2998 -/ { field := k!"rptComponents", path := (.all k!"RPT-COMPONENTS" (.all k!"RPT-COMPONENT" .nil)), item := (.objs [(k!"RPT-COMPONENT", k!"readRptSupportData_RptComponent")]), named := true },
   /- 3001 -/ { field := k!"rptServicePoints", path := (.all k!"RPT-SERVICE-POINTS" (.all k!"RPT-SERVICE-POINT" .nil)), item := (.objs [(k!"RPT-SERVICE-POINT", k!"readRptSupportData_RptServicePoint")]), named := true }]

/-- `readMcSupportData`, `parser/arxml_parser.py:2824-2841` (the `RptSupportData` it makes) -/
def readMcSupportData_RptSupportData : List RSlot :=
  /- 2840 -/ readRptSupportData

/-- `readMcSwEmulationMethodSupport`, `parser/arxml_parser.py:2843-2851` (the `McParameterElementGroup` it makes) -/
def readMcSwEmulationMethodSupport_McParameterElementGroup : List RSlot :=
  /- 2849 -/ readMcParameterElementGroup

/-- `readStackUsage`, `parser/arxml_parser.py:2742-2756` -/
def readStackUsage : List RSlot :=
  /- 2744 -/ readIdentifiable ++
  [/- 2745 -/ { field := k!"executableEntityRef", path := (.first [k!"EXECUTABLE-ENTITY-REF"] .nil), item := (.prim .ref) },
   /- 2746 -/ { field := k!"hwElementRef", path := (.first [k!"HW-ELEMENT-REF"] .nil), item := (.prim .ref) },
   /- 2751 -/ { field := k!"hardwareConfiguration", path := (.first [k!"HARDWARE-CONFIGURATION"] .nil), item := (.objs [(k!"HARDWARE-CONFIGURATION", k!"readHeapUsage_HardwareConfiguration")]) },
   /- 2756 -/ { field := k!"softwareContext", path := (.first [k!"SOFTWARE-CONTEXT"] .nil), item := (.objs [(k!"SOFTWARE-CONTEXT", k!"readHeapUsage_SoftwareContext")]) }]

/-- `readMeasuredStackUsage`, `parser/arxml_parser.py:2762-2767` -/
def readMeasuredStackUsage : List RSlot :=
  /- 2763 -/ readStackUsage ++
  [/- 2764 -/ { field := k!"averageMemoryConsumption", path := (.first [k!"AVERAGE-MEMORY-CONSUMPTION"] .nil), item := (.prim .positive) },
   /- 2765 -/ { field := k!"maximumMemoryConsumption", path := (.first [k!"MAXIMUM-MEMORY-CONSUMPTION"] .nil), item := (.prim .positive) },
   /- 2766 -/ { field := k!"minimumMemoryConsumption", path := (.first [k!"MINIMUM-MEMORY-CONSUMPTION"] .nil), item := (.prim .positive) },
   /- 2767 -/ { field := k!"testPattern", path := (.first [k!"TEST-PATTERN"] .nil), item := (.prim .lit) }]

/-- `readMemorySectionOptions`, `parser/arxml_parser.py:2555-2559` -/
def readMemorySectionOptions : List RSlot :=
  [/- 2559 -/ { field := k!"options", path := (.first [k!"OPTIONS"] (.all k!"OPTION" .nil)), item := (.prim .litPlain) }]

/-- `readMemorySections`, `parser/arxml_parser.py:2561-2573` -/
def readMemorySections : List RSlot :=
  [/- 2563 -/ { field := k!"memorySections", path := (.all k!"MEMORY-SECTIONS" (.all k!"MEMORY-SECTION" .nil)), item := (.objs [(k!"MEMORY-SECTION", k!"readMemorySections_MemorySection")]), elems := true, named := true, fresh := true }]

/-- `readMemorySections`, `parser/arxml_parser.py:2561-2573` (the `MemorySection` it makes) -/
def readMemorySections_MemorySection : List RSlot :=
  [/- 2563 -/ { field := k!"short_name", path := (.first [k!"SHORT-NAME"] .nil), item := .name, req := .always }] ++
  /- 2564 -/ readIdentifiable ++
  [/- 2565 -/ { field := k!"alignment", path := (.first [k!"ALIGNMENT"] .nil), item := (.prim .lit) },
   /- 2566 -/ { field := k!"memClassSymbol", path := (.first [k!"MEM-CLASS-SYMBOL"] .nil), item := (.prim .lit) }] ++
  /- 2567 -/ readMemorySectionOptions ++
  [/- 2568 -/ { field := k!"size", path := (.first [k!"SIZE"] .nil), item := (.prim .positive) },
   /- 2569 -/ { field := k!"swAddrMethodRef", path := (.first [k!"SW-ADDRMETHOD-REF"] .nil), item := (.prim .ref) },
   /- 2570 -/ { field := k!"symbol", path := (.first [k!"SYMBOL"] .nil), item := (.prim .lit) },
   /- 2571 -/ { field := k!"prefixRef", path := (.first [k!"PREFIX-REF"] .nil), item := (.prim .ref) },
   /- 2573 -/ { field := k!"executableEntityRefs", path := (.all k!"EXECUTABLE-ENTITY-REFS" (.all k!"EXECUTABLE-ENTITY-REF" .nil)), item := (.prim .ref) }]

/-- `readModeAccessPoint`, `parser/arxml_parser.py:3297-3299` -/
def readModeAccessPoint : List RSlot :=
  [/- 3298 -/ { field := k!"timestamp", path := .nil, item := (.attr k!"T" .raw) },
   /- 3298 -/ { field := k!"uuid", path := .nil, item := (.attr k!"UUID" .raw) },
   /- 3294 -/ { field := 0, path := (.all k!"MODE-GROUP-IREF" (.all 0 .nil)), item := (.guard [k!"P-MODE-GROUP-IN-ATOMIC-SWC-INSTANCE-REF", k!"R-MODE-GROUP-IN-ATOMIC-SWC-INSTANCE-REF"] .unsupported) },
   /- 3299 -/ { field := k!"modeGroupIRef", path := (.all k!"MODE-GROUP-IREF" (.all 0 .nil)), item := (.objs [(k!"P-MODE-GROUP-IN-ATOMIC-SWC-INSTANCE-REF", k!"getModeGroupIRef_PModeGroupInAtomicSwcInstanceRef"), (k!"R-MODE-GROUP-IN-ATOMIC-SWC-INSTANCE-REF", k!"getModeGroupIRef_RModeGroupInAtomicSWCInstanceRef")]), last := true }]

/-- `readModeDeclarationGroupModeDeclaration`, `parser/arxml_parser.py:5666-5671` (the `ModeDeclaration` it makes) -/
def readModeDeclarationGroupModeDeclaration_ModeDeclaration : List RSlot :=
  [/- 5669 -/ { field := k!"short_name", path := (.first [k!"SHORT-NAME"] .nil), item := .name, req := .always },
   /- 5670 -/ { field := k!"timestamp", path := .nil, item := (.attr k!"T" .raw) },
   /- 5670 -/ { field := k!"uuid", path := .nil, item := (.attr k!"UUID" .raw) },
   /- 5671 -/ { field := k!"value", path := (.first [k!"VALUE"] .nil), item := (.prim .positive) }]

/-- `readModeDeclarationGroupModeTransition`, `parser/arxml_parser.py:5682-5688` (the `ModeTransition` it makes) -/
def readModeDeclarationGroupModeTransition_ModeTransition : List RSlot :=
  [/- 5685 -/ { field := k!"short_name", path := (.first [k!"SHORT-NAME"] .nil), item := .name, req := .always },
   /- 5686 -/ { field := k!"timestamp", path := .nil, item := (.attr k!"T" .raw) },
   /- 5686 -/ { field := k!"uuid", path := .nil, item := (.attr k!"UUID" .raw) },
   /- 5687 -/ { field := k!"enteredModeRef", path := (.first [k!"ENTERED-MODE-REF"] .nil), item := (.prim .ref) },
   /- 5688 -/ { field := k!"exitedModeRef", path := (.first [k!"EXITED-MODE-REF"] .nil), item := (.prim .ref) }]

/-- `readModeDeclarationMappingFirstModeRefs`, `parser/arxml_parser.py:7334-7336` -/
def readModeDeclarationMappingFirstModeRefs : List RSlot :=
  [/- 7336 -/ { field := k!"firstModeRefs", path := (.all k!"FIRST-MODE-REFS" (.all k!"FIRST-MODE-REF" .nil)), item := (.prim .ref) }]

/-- `readModeDeclarationMapping`, `parser/arxml_parser.py:7338-7342` -/
def readModeDeclarationMapping : List RSlot :=
  /- 7340 -/ readIdentifiable ++
  /- 7341 -/ readModeDeclarationMappingFirstModeRefs ++
  [/- 7342 -/ { field := k!"secondModeRef", path := (.first [k!"SECOND-MODE-REF"] .nil), item := (.prim .ref) }]

/-- `readModeDeclarationMappingSetModeDeclarationMappings`, `parser/arxml_parser.py:7344-7351` (the `ModeDeclarationMapping` it makes) -/
def readModeDeclarationMappingSetModeDeclarationMappings_ModeDeclarationMapping : List RSlot :=
  [/- 7348 -/ { field := k!"short_name", path := (.first [k!"SHORT-NAME"] .nil), item := .name, req := .always }] ++
  /- 7349 -/ readModeDeclarationMapping

/-- `readModeErrorBehavior`, `parser/arxml_parser.py:5673-5680` (the `ModeErrorBehavior` it makes) -/
def readModeErrorBehavior_ModeErrorBehavior : List RSlot :=
  [/- 5675 -/ { field := k!"timestamp", path := .nil, item := (.attr k!"T" .raw) },
   /- 5675 -/ { field := k!"uuid", path := .nil, item := (.attr k!"UUID" .raw) },
   /- 5676 -/ { field := k!"defaultModeRef", path := (.first [k!"DEFAULT-MODE-REF"] .nil), item := (.prim .ref) },
   /- 5679 -/ { field := k!"errorReactionPolicy", path := (.first [k!"ERROR-REACTION-POLICY"] .nil), item := (.prim .litPlain) }]

/-- `readModeInterfaceMappingModeMapping`, `parser/arxml_parser.py:8989-8996` -/
def readModeInterfaceMappingModeMapping : List RSlot :=
  [/- 8996 -/ { field := k!"modeMapping", path := (.first [k!"MODE-MAPPING"] .nil), item := (.objs [(k!"MODE-MAPPING", k!"readModeInterfaceMappingModeMapping_ModeDeclarationGroupPrototypeMapping")]) }]

/-- `readModeInterfaceMapping`, `parser/arxml_parser.py:8998-9001` -/
def readModeInterfaceMapping : List RSlot :=
  /- 9000 -/ readIdentifiable ++
  /- 9001 -/ readModeInterfaceMappingModeMapping

/-- `readModeInterfaceMappingModeMapping`, `parser/arxml_parser.py:8989-8996` (the `ModeDeclarationGroupPrototypeMapping` it makes) -/
def readModeInterfaceMappingModeMapping_ModeDeclarationGroupPrototypeMapping : List RSlot :=
  [/- 8993 -/ { field := k!"firstModeGroupRef", path := (.first [k!"FIRST-MODE-GROUP-REF"] .nil), item := (.prim .ref) },
   /- 8994 -/ { field := k!"modeDeclarationMappingSetRef", path := (.first [k!"MODE-DECLARATION-MAPPING-SET-REF"] .nil), item := (.prim .ref) },
   /- 8995 -/ { field := k!"secondModeGroupRef", path := (.first [k!"SECOND-MODE-GROUP-REF"] .nil), item := (.prim .ref) }]

/-- `readModeRequestTypeMaps`, `parser/arxml_parser.py:4988-4994` (the `ModeRequestTypeMap` it makes) -/
def readModeRequestTypeMaps_ModeRequestTypeMap : List RSlot :=
  [/- 4991 -/ { field := k!"timestamp", path := .nil, item := (.attr k!"T" .raw) },
   /- 4991 -/ { field := k!"uuid", path := .nil, item := (.attr k!"UUID" .raw) },
   /- 4992 -/ { field := k!"implementationDataTypeRef", path := (.first [k!"IMPLEMENTATION-DATA-TYPE-REF"] .nil), item := (.prim .ref) },
   /- 4993 -/ { field := k!"modeGroupRef", path := (.first [k!"MODE-GROUP-REF"] .nil), item := (.prim .ref) }]

/-- `readModeSwitchPointModeGroupIRef`, `parser/arxml_parser.py:3311-3316` -/
def readModeSwitchPointModeGroupIRef : List RSlot :=
  [/- 3316 -/ { field := k!"modeGroupIRef", path := (.first [k!"MODE-GROUP-IREF"] .nil), item := (.objs [(k!"MODE-GROUP-IREF", k!"getModeGroupIRef_PModeGroupInAtomicSwcInstanceRef")]) }]

/-- `readModeSwitchPoint`, `parser/arxml_parser.py:3318-3320` -/
def readModeSwitchPoint : List RSlot :=
  [/- 3319 -/ { field := k!"timestamp", path := .nil, item := (.attr k!"T" .raw) },
   /- 3319 -/ { field := k!"uuid", path := .nil, item := (.attr k!"UUID" .raw) }] ++
  /- 3320 -/ readModeSwitchPointModeGroupIRef

/-- `readMsrQueryTopic1`, `parser/arxml_parser.py:4731-4737` (the `MsrQueryTopic1` it makes); also `readMsrQueryChapter` -/
def readMsrQueryTopic1_MsrQueryTopic1 : List RSlot :=
  [/- 4733 -/ { field := k!"timestamp", path := .nil, item := (.attr k!"T" .raw) },
   /- 4733 -/ { field := k!"uuid", path := .nil, item := (.attr k!"UUID" .raw) },
   /- 4736 -/ { field := k!"msrQueryProps", path := (.first [k!"MSR-QUERY-PROPS"] .nil), item := (.objs [(k!"MSR-QUERY-PROPS", k!"getMsrQueryProps_MsrQueryProps")]) }]

/-- `readMultiplexedIPduDynamicParts`, `parser/arxml_parser.py:6435-6443` (the `DynamicPart` it makes) -/
def readMultiplexedIPduDynamicParts_DynamicPart : List RSlot :=
  /- 6440 -/ readDynamicPart

/-- `readStaticPart`, `parser/arxml_parser.py:6445-6447` -/
def readStaticPart : List RSlot :=
  /- 6446 -/ readMultiplexedPart ++
  [/- 6447 -/ { field := k!"iPduRef", path := (.first [k!"I-PDU-REF"] .nil), item := (.prim .ref) }]

/-- `readMultiplexedIPduStaticParts`, `parser/arxml_parser.py:6449-6457` (the `StaticPart` it makes) -/
def readMultiplexedIPduStaticParts_StaticPart : List RSlot :=
  /- 6454 -/ readStaticPart

/-- `readSegmentPosition`, `parser/arxml_parser.py:6398-6401` -/
def readSegmentPosition : List RSlot :=
  [/- 6399 -/ { field := k!"segmentByteOrder", path := (.first [k!"SEGMENT-BYTE-ORDER"] .nil), item := (.prim .lit) },
   /- 6400 -/ { field := k!"segmentLength", path := (.first [k!"SEGMENT-LENGTH"] .nil), item := (.prim .integer) },
   /- 6401 -/ { field := k!"segmentPosition", path := (.first [k!"SEGMENT-POSITION"] .nil), item := (.prim .integer) }]

/-- `readMultiplexedPartSegmentPositions`, `parser/arxml_parser.py:6403-6411` (the `SegmentPosition` it makes) -/
def readMultiplexedPartSegmentPositions_SegmentPosition : List RSlot :=
  /- 6408 -/ readSegmentPosition

/-- `readNmClusterNmNodes`, `parser/arxml_parser.py:6816-6830` (the `CanNmNode` it makes) -/
def readNmClusterNmNodes_CanNmNode : List RSlot :=
  [/- 6821 -/ { field := k!"short_name", path := (.first [k!"SHORT-NAME"] .nil), item := .name, req := .always }] ++
  /- 6822 -/ readCanNmNode

/-- `readNmClusterNmNodes`, `parser/arxml_parser.py:6816-6830` (the `J1939NmNode` it makes) -/
def readNmClusterNmNodes_J1939NmNode : List RSlot :=
  [/- 6827 -/ { field := k!"short_name", path := (.first [k!"SHORT-NAME"] .nil), item := .name, req := .always }] ++
  /- 6828 -/ readJ1939NmNode

/-- `readUdpNmNode`, `parser/arxml_parser.py:6805-6808` -/
def readUdpNmNode : List RSlot :=
  /- 6807 -/ readNmNode ++
  [/- 6808 -/ { field := k!"nmMsgCycleOffset", path := (.first [k!"NM-MSG-CYCLE-OFFSET"] .nil), item := (.prim .time) }]

/-- `readNmClusterNmNodes`, `parser/arxml_parser.py:6816-6830` (the `UdpNmNode` it makes) -/
def readNmClusterNmNodes_UdpNmNode : List RSlot :=
  [/- 6824 -/ { field := k!"short_name", path := (.first [k!"SHORT-NAME"] .nil), item := .name, req := .always }] ++
  /- 6825 -/ readUdpNmNode

/-- `readNmConfigNmClusters`, `parser/arxml_parser.py:6900-6910` (the `CanNmCluster` it makes) -/
def readNmConfigNmClusters_CanNmCluster : List RSlot :=
  [/- 6904 -/ { field := k!"short_name", path := (.first [k!"SHORT-NAME"] .nil), item := .name, req := .always }] ++
  /- 6905 -/ readCanNmCluster

/-- `readUdpNmCluster`, `parser/arxml_parser.py:6884-6898` -/
def readUdpNmCluster : List RSlot :=
  /- 6886 -/ readNmCluster ++
  [/- 6887 -/ { field := k!"nmCbvPosition", path := (.first [k!"NM-CBV-POSITION"] .nil), item := (.prim .integer) },
   /- 6888 -/ { field := k!"nmChannelActive", path := (.first [k!"NM-CHANNEL-ACTIVE"] .nil), item := (.prim .boolean) },
   /- 6889 -/ { field := k!"nmImmediateNmCycleTime", path := (.first [k!"NM-IMMEDIATE-NM-CYCLE-TIME"] .nil), item := (.prim .time) },
   /- 6890 -/ { field := k!"nmImmediateNmTransmissions", path := (.first [k!"NM-IMMEDIATE-NM-TRANSMISSIONS"] .nil), item := (.prim .positive) },
   /- 6891 -/ { field := k!"nmMessageTimeoutTime", path := (.first [k!"NM-MESSAGE-TIMEOUT-TIME"] .nil), item := (.prim .time) },
   /- 6892 -/ { field := k!"nmMsgCycleTime", path := (.first [k!"NM-MSG-CYCLE-TIME"] .nil), item := (.prim .time) },
   /- 6893 -/ { field := k!"nmNetworkTimeout", path := (.first [k!"NM-NETWORK-TIMEOUT"] .nil), item := (.prim .time) },
   /- 6894 -/ { field := k!"nmNidPosition", path := (.first [k!"NM-NID-POSITION"] .nil), item := (.prim .integer) },
   /- 6895 -/ { field := k!"nmRemoteSleepIndicationTime", path := (.first [k!"NM-REMOTE-SLEEP-INDICATION-TIME"] .nil), item := (.prim .time) },
   /- 6896 -/ { field := k!"nmRepeatMessageTime", path := (.first [k!"NM-REPEAT-MESSAGE-TIME"] .nil), item := (.prim .time) },
   /- 6897 -/ { field := k!"nmWaitBusSleepTime", path := (.first [k!"NM-WAIT-BUS-SLEEP-TIME"] .nil), item := (.prim .time) },
   /- 6898 -/ { field := k!"vlanRef", path := (.first [k!"VLAN-REF"] .nil), item := (.prim .ref) }]

/-- `readNmConfigNmClusters`, `parser/arxml_parser.py:6900-6910` (the `UdpNmCluster` it makes) -/
def readNmConfigNmClusters_UdpNmCluster : List RSlot :=
  [/- 6907 -/ { field := k!"short_name", path := (.first [k!"SHORT-NAME"] .nil), item := .name, req := .always }] ++
  /- 6908 -/ readUdpNmCluster

/-- `readNmEcu`, `parser/arxml_parser.py:6925-6937` -/
def readNmEcu : List RSlot :=
  /- 6926 -/ readIdentifiable ++
  /- 6927 -/ readBusDependentNmEcus ++
  [/- 6928 -/ { field := k!"ecuInstanceRef", path := (.first [k!"ECU-INSTANCE-REF"] .nil), item := (.prim .ref) },
   /- 6929 -/ { field := k!"nmBusSynchronizationEnabled", path := (.first [k!"NM-BUS-SYNCHRONIZATION-ENABLED"] .nil), item := (.prim .boolean) },
   /- 6930 -/ { field := k!"nmComControlEnabled", path := (.first [k!"NM-COM-CONTROL-ENABLED"] .nil), item := (.prim .boolean) },
   /- 6931 -/ { field := k!"nmNodeDetectionEnabled", path := (.first [k!"NM-NODE-DETECTION-ENABLED"] .nil), item := (.prim .boolean) },
   /- 6932 -/ { field := k!"nmNodeIdEnabled", path := (.first [k!"NM-NODE-ID-ENABLED"] .nil), item := (.prim .boolean) },
   /- 6933 -/ { field := k!"nmPduRxIndicationEnabled", path := (.first [k!"NM-PDU-RX-INDICATION-ENABLED"] .nil), item := (.prim .boolean) },
   /- 6934 -/ { field := k!"nmRemoteSleepIndEnabled", path := (.first [k!"NM-REMOTE-SLEEP-IND-ENABLED"] .nil), item := (.prim .boolean) },
   /- 6935 -/ { field := k!"nmRepeatMsgIndEnabled", path := (.first [k!"NM-REPEAT-MSG-IND-ENABLED"] .nil), item := (.prim .boolean) },
   /- 6936 -/ { field := k!"nmStateChangeIndEnabled", path := (.first [k!"NM-STATE-CHANGE-IND-ENABLED"] .nil), item := (.prim .boolean) },
   /- 6937 -/ { field := k!"nmUserDataEnabled", path := (.first [k!"NM-USER-DATA-ENABLED"] .nil), item := (.prim .boolean) }]

/-- `readNmConfigNmIfEcus`, `parser/arxml_parser.py:6939-6946` (the `NmEcu` it makes) -/
def readNmConfigNmIfEcus_NmEcu : List RSlot :=
  [/- 6943 -/ { field := k!"short_name", path := (.first [k!"SHORT-NAME"] .nil), item := .name, req := .always }] ++
  /- 6944 -/ readNmEcu

/-- `readNmPduISignalToIPduMappings`, `parser/arxml_parser.py:6714-6721` (the `ISignalToIPduMapping` it makes) -/
def readNmPduISignalToIPduMappings_ISignalToIPduMapping : List RSlot :=
  [/- 6718 -/ { field := k!"short_name", path := (.first [k!"SHORT-NAME"] .nil), item := .name, req := .always }] ++
  /- 6719 -/ readISignalToIPduMapping

/-- `readNvBlockDescriptor`, `parser/arxml_parser.py:1095-1146` -/
def readNvBlockDescriptor : List RSlot :=
  /- 1096 -/ readIdentifiable ++
  [/- 1100 -/ { field := k!"clientServerPorts", path := (.all k!"CLIENT-SERVER-PORTS" (.all k!"ROLE-BASED-PORT-ASSIGNMENT" .nil)), item := (.objs [(k!"ROLE-BASED-PORT-ASSIGNMENT", k!"getRoleBasedPortAssignment_RoleBasedPortAssignment")]) },
   /- 1102 -/ { field := 0, path := (.all k!"CLIENT-SERVER-PORTS" (.all 0 .nil)), item := (.guard [k!"ROLE-BASED-PORT-ASSIGNMENT"] .unsupported) },
   /- 1104 -/ { field := k!"constantValueMappingRefs", path := (.all k!"CONSTANT-VALUE-MAPPING-REFS" (.all k!"CONSTANT-VALUE-MAPPING-REF" .nil)), item := (.prim .ref) },
   /- 1106 -/ { field := k!"dataTypeMappingRefs", path := (.all k!"DATA-TYPE-MAPPING-REFS" (.all k!"DATA-TYPE-MAPPING-REF" .nil)), item := (.prim .ref) },
   /- 1113 -/ { field := k!"instantiationDataDefPropss", path := (.all k!"INSTANTIATION-DATA-DEF-PROPSS" (.all k!"INSTANTIATION-DATA-DEF-PROPS" .nil)), item := (.objs [(k!"INSTANTIATION-DATA-DEF-PROPS", k!"readNvBlockDescriptor_InstantiationDataDefProps")]) },
   /- 1117 -/ { field := k!"modeSwitchEventTriggeredActivitys", path := (.all k!"MODE-SWITCH-EVENT-TRIGGERED-ACTIVITYS" (.all k!"MODE-SWITCH-EVENT-TRIGGERED-ACTIVITY" .nil)), item := (.objs [(k!"MODE-SWITCH-EVENT-TRIGGERED-ACTIVITY", k!"getModeSwitchEventTriggeredActivity_ModeSwitchEventTriggeredActivity")]) },
   /- 1119 -/ { field := 0, path := (.all k!"MODE-SWITCH-EVENT-TRIGGERED-ACTIVITYS" (.all 0 .nil)), item := (.guard [k!"MODE-SWITCH-EVENT-TRIGGERED-ACTIVITY"] .unsupported) },
   /- 1123 -/ { field := k!"nvBlockDataMappings", path := (.all k!"NV-BLOCK-DATA-MAPPINGS" (.all k!"NV-BLOCK-DATA-MAPPING" .nil)), item := (.objs [(k!"NV-BLOCK-DATA-MAPPING", k!"readNvBlockDescriptor_NvBlockDataMapping")]) },
   /- 1128 -/ { field := k!"nvBlockNeeds", path := (.first [k!"NV-BLOCK-NEEDS"] .nil), item := (.objs [(k!"NV-BLOCK-NEEDS", k!"readNvBlockDescriptor_NvBlockNeeds")]) },
   /- 1133 -/ { field := k!"ramBlock", path := (.first [k!"RAM-BLOCK"] .nil), item := (.objs [(k!"RAM-BLOCK", k!"readNvBlockDescriptor_VariableDataPrototype")]) },
   /- 1138 -/ { field := k!"romBlock", path := (.first [k!"ROM-BLOCK"] .nil), item := (.objs [(k!"ROM-BLOCK", k!"readNvBlockDescriptor_ParameterDataPrototype")]) },
   /- 1139 -/ { field := k!"supportDirtyFlag", path := (.first [k!"SUPPORT-DIRTY-FLAG"] .nil), item := (.prim .boolean) },
   /- 1140 -/ { field := k!"timingEventRef", path := (.first [k!"TIMING-EVENT-REF"] .nil), item := (.prim .ref) },
   /- 1144 -/ { field := k!"writingStrategies", path := (.all k!"WRITING-STRATEGYS" (.all k!"ROLE-BASED-DATA-ASSIGNMENT" .nil)), item := (.objs [(k!"ROLE-BASED-DATA-ASSIGNMENT", k!"getRoleBasedDataAssignment_RoleBasedDataAssignment")]) },
   /- 1146 -/ { field := 0, path := (.all k!"WRITING-STRATEGYS" (.all 0 .nil)), item := (.guard [k!"ROLE-BASED-DATA-ASSIGNMENT"] .unsupported) }]

/-- `readNvBlockDescriptor`, `parser/arxml_parser.py:1095-1146` (the `InstantiationDataDefProps` it makes); also `readSwcInternalBehaviorInstantiationDataDefProps` -/
def readNvBlockDescriptor_InstantiationDataDefProps : List RSlot :=
  [/- 1109 -/ { field := k!"timestamp", path := .nil, item := (.attr k!"T" .raw) },
   /- 1109 -/ { field := k!"uuid", path := .nil, item := (.attr k!"UUID" .raw) },
   /- 1110 -/ { field := k!"parameterInstance", path := (.first [k!"PARAMETER-INSTANCE"] .nil), item := (.objs [(k!"PARAMETER-INSTANCE", k!"getAutosarParameterRef_AutosarParameterRef")]) },
   /- 1111 -/ { field := k!"swDataDefProps", path := (.first [k!"SW-DATA-DEF-PROPS"] .nil), item := (.objs [(k!"SW-DATA-DEF-PROPS", k!"getSwDataDefProps_SwDataDefProps")]) },
   /- 1112 -/ { field := k!"variableInstance", path := (.first [k!"VARIABLE-INSTANCE"] .nil), item := (.objs [(k!"VARIABLE-INSTANCE", k!"getAutosarVariableRef_AutosarVariableRef")]) }]

/-- `readNvBlockSwComponentType`, `parser/arxml_parser.py:4799-4807` (the `BulkNvDataDescriptor` it makes) -/
def readNvBlockSwComponentType_BulkNvDataDescriptor : List RSlot :=
  [/- 4803 -/ { field := k!"short_name", path := (.first [k!"SHORT-NAME"] .nil), item := .name, req := .always }] ++
  /- 4804 -/ readBulkNvDataDescriptor

/-- `readNvBlockSwComponentType`, `parser/arxml_parser.py:4799-4807` (the `NvBlockDescriptor` it makes) -/
def readNvBlockSwComponentType_NvBlockDescriptor : List RSlot :=
  [/- 4806 -/ { field := k!"short_name", path := (.first [k!"SHORT-NAME"] .nil), item := .name, req := .always }] ++
  /- 4807 -/ readNvBlockDescriptor

/-- `readPOperationIRef`, `parser/arxml_parser.py:3407-3414` -/
def readPOperationIRef_OPERATION_IREF : List RSlot :=
  [/- 3414 -/ { field := k!"operationIRef", path := (.first [k!"OPERATION-IREF"] .nil), item := (.objs [(k!"OPERATION-IREF", k!"readPOperationIRef_POperationInAtomicSwcInstanceRef")]) }]

/-- `readOperationInvokedEvent`, `parser/arxml_parser.py:3416-3419` -/
def readOperationInvokedEvent : List RSlot :=
  /- 3418 -/ readPOperationIRef_OPERATION_IREF ++
  /- 3419 -/ readRTEEvent

/-- `readPOperationIRef`, `parser/arxml_parser.py:3407-3414` (the `POperationInAtomicSwcInstanceRef` it makes) -/
def readPOperationIRef_POperationInAtomicSwcInstanceRef : List RSlot :=
  [/- 3411 -/ { field := k!"timestamp", path := .nil, item := (.attr k!"T" .raw) },
   /- 3411 -/ { field := k!"uuid", path := .nil, item := (.attr k!"UUID" .raw) },
   /- 3412 -/ { field := k!"contextPPortRef", path := (.first [k!"CONTEXT-P-PORT-REF"] .nil), item := (.prim .ref), req := .strict },
   /- 3413 -/ { field := k!"targetProvidedOperationRef", path := (.first [k!"TARGET-PROVIDED-OPERATION-REF"] .nil), item := (.prim .ref), req := .strict }]

/-- `readPortPrototype`, `parser/arxml_parser.py:4356-4404` -/
def readPortPrototype : List RSlot :=
  [/- 4360 -/ { field := k!"clientServerAnnotations", path := (.all k!"CLIENT-SERVER-ANNOTATIONS" (.all k!"CLIENT-SERVER-ANNOTATION" .nil)), item := (.objs [(k!"CLIENT-SERVER-ANNOTATION", k!"readPortPrototype_ClientServerAnnotation")]) },
   /- 4367 -/ { field := k!"delegatedPortAnnotation", path := (.first [k!"DELEGATED-PORT-ANNOTATION"] .nil), item := (.objs [(k!"DELEGATED-PORT-ANNOTATION", k!"readPortPrototype_DelegatedPortAnnotation")]) },
   /- 4377 -/ { field := k!"ioHwAbstractionServerAnnotations", path := (.all k!"IO-HW-ABSTRACTION-SERVER-ANNOTATIONS" (.all k!"IO-HW-ABSTRACTION-SERVER-ANNOTATION" .nil)), item := (.objs [(k!"IO-HW-ABSTRACTION-SERVER-ANNOTATION", k!"readPortPrototype_IoHwAbstractionServerAnnotation")]) },
   /- 4381 -/ { field := k!"modePortAnnotations", path := (.all k!"MODE-PORT-ANNOTATIONS" (.all k!"MODE-PORT-ANNOTATION" .nil)), item := (.objs [(k!"MODE-PORT-ANNOTATION", k!"readPortPrototype_ModePortAnnotation")]) },
   /- 4385 -/ { field := k!"nvDataPortAnnotations", path := (.all k!"NV-DATA-PORT-ANNOTATIONS" (.all k!"NV-DATA-PORT-ANNOTATION" .nil)), item := (.objs [(k!"NV-DATA-PORT-ANNOTATION", k!"readPortPrototype_NvDataPortAnnotation")]) },
   /- 4389 -/ { field := k!"parameterPortAnnotations", path := (.all k!"PARAMETER-PORT-ANNOTATIONS" (.all k!"PARAMETER-PORT-ANNOTATION" .nil)), item := (.objs [(k!"PARAMETER-PORT-ANNOTATION", k!"readPortPrototype_ParameterPortAnnotation")]) },
   /- 4400 -/ { field := k!"senderReceiverAnnotations", path := (.all k!"SENDER-RECEIVER-ANNOTATIONS" (.all k!"SENDER-RECEIVER-ANNOTATION" .nil)), item := (.objs [(k!"SENDER-RECEIVER-ANNOTATION", k!"readPortPrototype_SenderReceiverAnnotation")]) },
   /- 4404 -/ { field := k!"triggerPortAnnotations", path := (.all k!"TRIGGER-PORT-ANNOTATIONS" (.all k!"TRIGGER-PORT-ANNOTATION" .nil)), item := (.objs [(k!"TRIGGER-PORT-ANNOTATION", k!"readPortPrototype_TriggerPortAnnotation")]) }]

/-- `readPPortPrototype`, `parser/arxml_parser.py:4331-4336` -/
def readPPortPrototype : List RSlot :=
  /- 4333 -/ readIdentifiable ++
  /- 4334 -/ readAbstractRequiredPortPrototype_PPortPrototype ++
  [/- 4335 -/ { field := k!"providedInterfaceTRef", path := (.first [k!"PROVIDED-INTERFACE-TREF"] .nil), item := (.prim .ref) }] ++
  /- 4336 -/ readPortPrototype

/-- `readPRPortPrototype`, `parser/arxml_parser.py:4348-4354` -/
def readPRPortPrototype : List RSlot :=
  /- 4350 -/ readIdentifiable ++
  /- 4351 -/ readAbstractRequiredPortPrototype_PRPortPrototype ++
  /- 4352 -/ readAbstractProvidedPortPrototype_PRPortPrototype ++
  [/- 4353 -/ { field := k!"providedRequiredInterface", path := (.first [k!"PROVIDED-REQUIRED-INTERFACE-TREF"] .nil), item := (.prim .ref) }] ++
  /- 4354 -/ readPortPrototype

/-- `readPTriggerInAtomicSwcTypeInstanceRef`, `parser/arxml_parser.py:3194-3196` -/
def readPTriggerInAtomicSwcTypeInstanceRef : List RSlot :=
  [/- 3195 -/ { field := k!"contextPPortRef", path := (.first [k!"CONTEXT-P-PORT-REF"] .nil), item := (.prim .ref) },
   /- 3196 -/ { field := k!"targetTriggerRef", path := (.first [k!"TARGET-TRIGGER-REF"] .nil), item := (.prim .ref) }]

/-- `readParameterAccess`, `parser/arxml_parser.py:3093-3095` -/
def readParameterAccess : List RSlot :=
  /- 3094 -/ readIdentifiable ++
  [/- 3095 -/ { field := k!"accessedParameter", path := (.first [k!"ACCESSED-PARAMETER"] .nil), item := (.objs [(k!"ACCESSED-PARAMETER", k!"getAutosarParameterRef_AutosarParameterRef")]) }]

/-- `readPduToFrameMappings`, `parser/arxml_parser.py:6681-6689` (the `PduToFrameMapping` it makes) -/
def readPduToFrameMappings_PduToFrameMapping : List RSlot :=
  [/- 6685 -/ { field := k!"short_name", path := (.first [k!"SHORT-NAME"] .nil), item := .name, req := .always }] ++
  /- 6686 -/ readIdentifiable ++
  [/- 6687 -/ { field := k!"packingByteOrder", path := (.first [k!"PACKING-BYTE-ORDER"] .nil), item := (.prim .lit) },
   /- 6688 -/ { field := k!"pduRef", path := (.first [k!"PDU-REF"] .nil), item := (.prim .ref) },
   /- 6689 -/ { field := k!"startPosition", path := (.first [k!"START-POSITION"] .nil), item := (.prim .numerical) }]

/-- `readPduTriggering`, `parser/arxml_parser.py:5825-5832` -/
def readPduTriggering : List RSlot :=
  /- 5827 -/ readIdentifiable ++
  [/- 5829 -/ { field := k!"iPduPortRefs", path := (.all k!"I-PDU-PORT-REFS" (.all k!"I-PDU-PORT-REF" .nil)), item := (.prim .ref) },
   /- 5830 -/ { field := k!"iPduRef", path := (.first [k!"I-PDU-REF"] .nil), item := (.prim .ref) },
   /- 5832 -/ { field := k!"iSignalTriggeringRefs", path := (.all k!"I-SIGNAL-TRIGGERINGS" (.all k!"I-SIGNAL-TRIGGERING-REF-CONDITIONAL" (.first [k!"I-SIGNAL-TRIGGERING-REF"] .nil))), item := (.prim .ref) }]

/-- `readPhysConstrs`, `parser/arxml_parser.py:5437-5450` (the `PhysConstrs` it makes) -/
def readPhysConstrs_PhysConstrs : List RSlot :=
  [/- 5441 -/ { field := k!"timestamp", path := .nil, item := (.attr k!"T" .raw) },
   /- 5441 -/ { field := k!"uuid", path := .nil, item := (.attr k!"UUID" .raw) },
   /- 5442 -/ { field := k!"lowerLimit", path := (.first [k!"LOWER-LIMIT"] .nil), item := (.prim .limit) },
   /- 5443 -/ { field := k!"upperLimit", path := (.first [k!"UPPER-LIMIT"] .nil), item := (.prim .limit) },
   /- 5444 -/ { field := k!"maxDiff", path := (.first [k!"MAX-DIFF"] .nil), item := (.prim .numerical) },
   /- 5445 -/ { field := k!"maxGradient", path := (.first [k!"MAX-GRADIENT"] .nil), item := (.prim .numerical) },
   /- 5446 -/ { field := k!"monotony", path := (.first [k!"MONOTONY"] .nil), item := (.prim .lit) },
   /- 5448 -/ { field := k!"scaleConstrs", path := (.all k!"SCALE-CONSTRS" (.all k!"SCALE-CONSTR" .nil)), item := (.objs [(k!"SCALE-CONSTR", k!"readScaleConstr_ScaleConstr")]) },
   /- 5449 -/ { field := k!"unitRef", path := (.first [k!"UNIT-REF"] .nil), item := (.prim .ref) }]

/-- `readPhysicalChannelFrameTriggerings`, `parser/arxml_parser.py:5838-5851` (the `CanFrameTriggering` it makes) -/
def readPhysicalChannelFrameTriggerings_CanFrameTriggering : List RSlot :=
  [/- 5842 -/ { field := k!"short_name", path := (.first [k!"SHORT-NAME"] .nil), item := .name, req := .always }] ++
  /- 5843 -/ readCanFrameTriggering

/-- `readPhysicalChannelFrameTriggerings`, `parser/arxml_parser.py:5838-5851` (the `FlexrayFrameTriggering` it makes) -/
def readPhysicalChannelFrameTriggerings_FlexrayFrameTriggering : List RSlot :=
  [/- 5848 -/ { field := k!"short_name", path := (.first [k!"SHORT-NAME"] .nil), item := .name, req := .always }] ++
  /- 5849 -/ readFlexrayFrameTriggering

/-- `readPhysicalChannelFrameTriggerings`, `parser/arxml_parser.py:5838-5851` (the `LinFrameTriggering` it makes) -/
def readPhysicalChannelFrameTriggerings_LinFrameTriggering : List RSlot :=
  [/- 5845 -/ { field := k!"short_name", path := (.first [k!"SHORT-NAME"] .nil), item := .name, req := .always }] ++
  /- 5846 -/ readLinFrameTriggering

/-- `readPhysicalChannelISignalTriggerings`, `parser/arxml_parser.py:5853-5860` (the `ISignalTriggering` it makes) -/
def readPhysicalChannelISignalTriggerings_ISignalTriggering : List RSlot :=
  [/- 5857 -/ { field := k!"short_name", path := (.first [k!"SHORT-NAME"] .nil), item := .name, req := .always }] ++
  /- 5858 -/ readISignalTriggering

/-- `readPhysicalChannelPduTriggerings`, `parser/arxml_parser.py:5862-5869` (the `PduTriggering` it makes) -/
def readPhysicalChannelPduTriggerings_PduTriggering : List RSlot :=
  [/- 5866 -/ { field := k!"short_name", path := (.first [k!"SHORT-NAME"] .nil), item := .name, req := .always }] ++
  /- 5867 -/ readPduTriggering

/-- `readPortDefinedArgumentValue`, `parser/arxml_parser.py:3455-3461` (the `PortDefinedArgumentValue` it makes) -/
def readPortDefinedArgumentValue_PortDefinedArgumentValue : List RSlot :=
  [/- 3459 -/ { field := k!"value", path := (.first [k!"VALUE", 0] .nil), item := (.objs [(k!"APPLICATION-VALUE-SPECIFICATION", k!"getApplicationValueSpecification_ApplicationValueSpecification"), (k!"APPLICATION-RULE-BASED-VALUE-SPECIFICATION", k!"getApplicationRuleBasedValueSpecification_ApplicationRuleBasedValueSpecification"), (k!"COMPOSITE-RULE-BASED-VALUE-SPECIFICATION", k!"getCompositeRuleBasedValueSpecification_CompositeRuleBasedValueSpecification"), (k!"RECORD-VALUE-SPECIFICATION", k!"getRecordValueSpecification_RecordValueSpecification"), (k!"NUMERICAL-VALUE-SPECIFICATION", k!"getNumericalValueSpecification_NumericalValueSpecification"), (k!"ARRAY-VALUE-SPECIFICATION", k!"getArrayValueSpecification_ArrayValueSpecification"), (k!"TEXT-VALUE-SPECIFICATION", k!"getTextValueSpecification_TextValueSpecification"), (k!"CONSTANT-REFERENCE", k!"getConstantReference_ConstantReference")]) },
   /- 3460 -/ { field := k!"valueTypeTRef", path := (.first [k!"VALUE-TYPE-TREF"] .nil), item := (.prim .ref) },
   /- 5392 -/ { field := 0, path := (.first [k!"VALUE", 0] .nil), item := (.guard [k!"APPLICATION-VALUE-SPECIFICATION", k!"APPLICATION-RULE-BASED-VALUE-SPECIFICATION", k!"COMPOSITE-RULE-BASED-VALUE-SPECIFICATION", k!"RECORD-VALUE-SPECIFICATION", k!"NUMERICAL-VALUE-SPECIFICATION", k!"ARRAY-VALUE-SPECIFICATION", k!"TEXT-VALUE-SPECIFICATION", k!"CONSTANT-REFERENCE"] .unbound) }]

/-- `readPortGroupInnerGroupIRefs`, `parser/arxml_parser.py:4562-4567` -/
def readPortGroupInnerGroupIRefs : List RSlot :=
  [/- 4567 -/ { field := k!"_inner_group_iref", path := (.all k!"INNER-GROUP-IREFS" (.all k!"INNER-GROUP-IREF" .nil)), item := (.objs [(k!"INNER-GROUP-IREF", k!"readPortGroupInnerGroupIRefs_InnerPortGroupInCompositionInstanceRef")]) }]

/-- `readPortGroupInnerGroupIRefs`, `parser/arxml_parser.py:4562-4567` (the `InnerPortGroupInCompositionInstanceRef` it makes) -/
def readPortGroupInnerGroupIRefs_InnerPortGroupInCompositionInstanceRef : List RSlot :=
  [/- 4566 -/ { field := k!"targetRef", path := (.first [k!"TARGET-REF"] .nil), item := (.prim .ref) }]

/-- `readPortGroupOuterPortRefs`, `parser/arxml_parser.py:4569-4571` -/
def readPortGroupOuterPortRefs : List RSlot :=
  [/- 4571 -/ { field := k!"_outer_port_ref", path := (.all k!"OUTER-PORTS" (.all k!"PORT-PROTOTYPE-REF-CONDITIONAL" (.first [k!"PORT-PROTOTYPE-REF"] .nil))), item := (.prim .ref) }]

/-- `readPortGroup`, `parser/arxml_parser.py:4573-4579` (the `PortGroup` it makes) -/
def readPortGroup_PortGroup : List RSlot :=
  [/- 4576 -/ { field := k!"short_name", path := (.first [k!"SHORT-NAME"] .nil), item := .name, req := .always }] ++
  /- 4577 -/ readIdentifiable ++
  /- 4578 -/ readPortGroupInnerGroupIRefs ++
  /- 4579 -/ readPortGroupOuterPortRefs

/-- `readPortInterfaceMappings`, `parser/arxml_parser.py:9003-9016` (the `ClientServerInterfaceMapping` it makes) -/
def readPortInterfaceMappings_ClientServerInterfaceMapping : List RSlot :=
  [/- 9010 -/ { field := k!"short_name", path := (.first [k!"SHORT-NAME"] .nil), item := .name, req := .always }] ++
  /- 9011 -/ readClientServerInterfaceMapping

/-- `readPortInterfaceMappings`, `parser/arxml_parser.py:9003-9016` (the `ModeInterfaceMapping` it makes) -/
def readPortInterfaceMappings_ModeInterfaceMapping : List RSlot :=
  [/- 9013 -/ { field := k!"short_name", path := (.first [k!"SHORT-NAME"] .nil), item := .name, req := .always }] ++
  /- 9014 -/ readModeInterfaceMapping

/-- `readVariableAndParameterInterfaceMapping`, `parser/arxml_parser.py:8964-8968` -/
def readVariableAndParameterInterfaceMapping : List RSlot :=
  /- 8966 -/ readIdentifiable ++
  [/- 8968 -/ { field := k!"dataMappings", path := (.all k!"DATA-MAPPINGS" (.all k!"DATA-PROTOTYPE-MAPPING" .nil)), item := (.objs [(k!"DATA-PROTOTYPE-MAPPING", k!"getDataPrototypeMappings_DataPrototypeMapping")]) }]

/-- `readPortInterfaceMappings`, `parser/arxml_parser.py:9003-9016` (the `VariableAndParameterInterfaceMapping` it makes) -/
def readPortInterfaceMappings_VariableAndParameterInterfaceMapping : List RSlot :=
  [/- 9007 -/ { field := k!"short_name", path := (.first [k!"SHORT-NAME"] .nil), item := .name, req := .always }] ++
  /- 9008 -/ readVariableAndParameterInterfaceMapping

/-- `readPortPrototype`, `parser/arxml_parser.py:4356-4404` (the `ClientServerAnnotation` it makes) -/
def readPortPrototype_ClientServerAnnotation : List RSlot :=
  [/- 4359 -/ { field := k!"operationRef", path := (.first [k!"OPERATION-REF"] .nil), item := (.prim .ref) }]

/-- `readPortPrototype`, `parser/arxml_parser.py:4356-4404` (the `DelegatedPortAnnotation` it makes) -/
def readPortPrototype_DelegatedPortAnnotation : List RSlot :=
  [/- 4366 -/ { field := k!"signalFan", path := (.first [k!"SIGNAL-FAN"] .nil), item := (.prim .litPlain) }]

/-- `readPortPrototype`, `parser/arxml_parser.py:4356-4404` (the `IoHwAbstractionServerAnnotation` it makes) -/
def readPortPrototype_IoHwAbstractionServerAnnotation : List RSlot :=
  [/- 4372 -/ { field := k!"filteringDebouncing", path := (.first [k!"FILTERING-DEBOUNCING"] .nil), item := (.prim .litPlain) },
   /- 4375 -/ { field := k!"pulseTest", path := (.first [k!"PULSE-TEST"] .nil), item := (.prim .litPlain) },
   /- 4376 -/ { field := k!"triggerRef", path := (.first [k!"TRIGGER-REF"] .nil), item := (.prim .ref) }]

/-- `readPortPrototype`, `parser/arxml_parser.py:4356-4404` (the `ModePortAnnotation` it makes) -/
def readPortPrototype_ModePortAnnotation : List RSlot :=
  [/- 4380 -/ { field := k!"modeGroupRef", path := (.first [k!"MODE-GROUP-REF"] .nil), item := (.prim .ref) }]

/-- `readPortPrototype`, `parser/arxml_parser.py:4356-4404` (the `NvDataPortAnnotation` it makes) -/
def readPortPrototype_NvDataPortAnnotation : List RSlot :=
  [/- 4384 -/ { field := k!"variableRef", path := (.first [k!"VARIABLE-REF"] .nil), item := (.prim .ref) }]

/-- `readPortPrototype`, `parser/arxml_parser.py:4356-4404` (the `ParameterPortAnnotation` it makes) -/
def readPortPrototype_ParameterPortAnnotation : List RSlot :=
  [/- 4388 -/ { field := k!"parameterRef", path := (.first [k!"PARAMETER-REF"] .nil), item := (.prim .ref) }]

/-- `readPortPrototype`, `parser/arxml_parser.py:4356-4404` (the `SenderReceiverAnnotation` it makes) -/
def readPortPrototype_SenderReceiverAnnotation : List RSlot :=
  [/- 4392 -/ { field := k!"computed", path := (.first [k!"COMPUTED"] .nil), item := (.prim .boolean) },
   /- 4393 -/ { field := k!"dataElementRef", path := (.first [k!"DATA-ELEMENT-REF"] .nil), item := (.prim .ref) },
   /- 4396 -/ { field := k!"limitKind", path := (.first [k!"LIMIT-KIND"] .nil), item := (.prim .litPlain) },
   /- 4399 -/ { field := k!"processingKind", path := (.first [k!"PROCESSING-KIND"] .nil), item := (.prim .litPlain) }]

/-- `readPortPrototype`, `parser/arxml_parser.py:4356-4404` (the `TriggerPortAnnotation` it makes) -/
def readPortPrototype_TriggerPortAnnotation : List RSlot :=
  [/- 4403 -/ { field := k!"triggerRef", path := (.first [k!"TRIGGER-REF"] .nil), item := (.prim .ref) }]

/-- `readPossibleErrorReaction`, `parser/arxml_parser.py:1834-1836` -/
def readPossibleErrorReaction : List RSlot :=
  /- 1835 -/ readIdentifiable ++
  [/- 1836 -/ { field := k!"reactionCode", path := (.first [k!"REACTION-CODE"] .nil), item := (.prim .positive) }]

/-- `readPossibleErrors`, `parser/arxml_parser.py:5070-5075` (the `ApplicationError` it makes) -/
def readPossibleErrors_ApplicationError : List RSlot :=
  [/- 5073 -/ { field := k!"short_name", path := (.first [k!"SHORT-NAME"] .nil), item := .name, req := .always }] ++
  /- 5074 -/ readIdentifiable ++
  [/- 5075 -/ { field := k!"errorCode", path := (.first [k!"ERROR-CODE"] .nil), item := (.prim .integer) }]

/-- `readPostBuildVariantCondition`, `parser/arxml_parser.py:823-827` -/
def readPostBuildVariantCondition : List RSlot :=
  [/- 824 -/ { field := k!"timestamp", path := .nil, item := (.attr k!"T" .raw) },
   /- 824 -/ { field := k!"uuid", path := .nil, item := (.attr k!"UUID" .raw) },
   /- 825 -/ { field := k!"matchingCriterionRef", path := (.first [k!"MATCHING-CRITERION-REF"] .nil), item := (.prim .ref), req := .strict },
   /- 826 -/ { field := k!"value", path := (.first [k!"VALUE"] .nil), item := (.prim .integer) }]

/-- `readPredefinedChapter`, `parser/arxml_parser.py:4667-4672` (the `PredefinedChapter` it makes) -/
def readPredefinedChapter_PredefinedChapter : List RSlot :=
  [/- 4671 -/ { field := k!"chapterModel", path := (.first [k!"CHAPTER-MODEL"] .nil), item := (.objs [(k!"CHAPTER-MODEL", k!"readChapterModel_ChapterModel")]) }]

/-- `readProvidedServiceInstanceEventHandlers`, `parser/arxml_parser.py:6159-6166` -/
def readProvidedServiceInstanceEventHandlers : List RSlot :=
  [/- 6163 -/ { field := k!"eventHandlers", path := (.all k!"EVENT-HANDLERS" (.all k!"EVENT-HANDLER" .nil)), item := (.objs [(k!"EVENT-HANDLER", k!"readProvidedServiceInstanceEventHandlers_EventHandler")]), elems := true, named := true, fresh := true },
   /- 6166 -/ { field := 0, path := (.all k!"EVENT-HANDLERS" (.all 0 .nil)), item := (.guard [k!"EVENT-HANDLER"] .unsupported) }]

/-- `readProvidedServiceInstance`, `parser/arxml_parser.py:6168-6189` -/
def readProvidedServiceInstance : List RSlot :=
  /- 6169 -/ readIdentifiable ++
  /- 6170 -/ readProvidedServiceInstanceEventHandlers ++
  [/- 6171 -/ { field := k!"instanceIdentifier", path := (.first [k!"INSTANCE-IDENTIFIER"] .nil), item := (.prim .positive) },
   /- 6172 -/ { field := k!"loadBalancingPriority", path := (.first [k!"LOAD-BALANCING-PRIORITY"] .nil), item := (.prim .positive) },
   /- 6173 -/ { field := k!"loadBalancingWeight", path := (.first [k!"LOAD-BALANCING-WEIGHT"] .nil), item := (.prim .positive) },
   /- 6175 -/ { field := k!"localUnicastAddressRefs", path := (.all k!"LOCAL-UNICAST-ADDRESSS" (.all k!"APPLICATION-ENDPOINT-REF-CONDITIONAL" (.all k!"APPLICATION-ENDPOINT-REF" .nil))), item := (.prim .ref) },
   /- 6176 -/ { field := k!"minorVersion", path := (.first [k!"MINOR-VERSION"] .nil), item := (.prim .positive) },
   /- 6177 -/ { field := k!"priority", path := (.first [k!"PRIORITY"] .nil), item := (.prim .positive) },
   /- 6179 -/ { field := k!"remoteMulticastSubscriptionAddressRefs", path := (.all k!"REMOTE-MULTICAST-SUBSCRIPTION-ADDRESSS" (.all k!"APPLICATION-ENDPOINT-REF-CONDITIONAL" (.all k!"APPLICATION-ENDPOINT-REF" .nil))), item := (.prim .ref) },
   /- 6181 -/ { field := k!"remoteUnicastAddressRefs", path := (.all k!"REMOTE-UNICAST-ADDRESSS" (.all k!"APPLICATION-ENDPOINT-REF-CONDITIONAL" (.all k!"APPLICATION-ENDPOINT-REF" .nil))), item := (.prim .ref) },
   /- 6182 -/ { field := k!"sdServerConfig", path := (.first [k!"SD-SERVER-CONFIG"] .nil), item := (.objs [(k!"SD-SERVER-CONFIG", k!"getSdServerConfig_SdServerConfig")]) },
   /- 6183 -/ { field := k!"sdServerTimerConfigRef", path := (.first [k!"SD-SERVER-TIMER-CONFIGS", k!"SOMEIP-SD-SERVER-SERVICE-INSTANCE-CONFIG-REF-CONDITIONAL", k!"SOMEIP-SD-SERVER-SERVICE-INSTANCE-CONFIG-REF"] .nil), item := (.prim .ref) },
   /- 6187 -/ { field := k!"allowedServiceConsumerRefs", path := (.all k!"ALLOWED-SERVICE-CONSUMERS" (.all k!"NETWORK-ENDPOINT-REF-CONDITIONAL" (.all k!"NETWORK-ENDPOINT-REF" .nil))), item := (.prim .ref) },
   /- 6188 -/ { field := k!"autoAvailable", path := (.first [k!"AUTO-AVAILABLE"] .nil), item := (.prim .boolean) },
   /- 6189 -/ { field := k!"serviceIdentifier", path := (.first [k!"SERVICE-IDENTIFIER"] .nil), item := (.prim .positive) }]

/-- `readProvidedServiceInstanceEventHandlers`, `parser/arxml_parser.py:6159-6166` (the `EventHandler` it makes) -/
def readProvidedServiceInstanceEventHandlers_EventHandler : List RSlot :=
  [/- 6163 -/ { field := k!"short_name", path := (.first [k!"SHORT-NAME"] .nil), item := .name, req := .always }] ++
  /- 6164 -/ readEventHandler

/-- `readRModeInAtomicSwcInstanceRef`, `parser/arxml_parser.py:3127-3133` -/
def readRModeInAtomicSwcInstanceRef : List RSlot :=
  [/- 3133 -/ { field := k!"modeIRefs", path := (.all k!"MODE-IREFS" (.all k!"MODE-IREF" .nil)), item := (.objs [(k!"MODE-IREF", k!"readRModeInAtomicSwcInstanceRef_RModeInAtomicSwcInstanceRef")]) }]

/-- `readRModeInAtomicSwcInstanceRef`, `parser/arxml_parser.py:3127-3133` (the `RModeInAtomicSwcInstanceRef` it makes) -/
def readRModeInAtomicSwcInstanceRef_RModeInAtomicSwcInstanceRef : List RSlot :=
  [/- 3130 -/ { field := k!"contextPortRef", path := (.first [k!"CONTEXT-PORT-REF"] .nil), item := (.prim .ref) },
   /- 3131 -/ { field := k!"contextModeDeclarationGroupPrototypeRef", path := (.first [k!"CONTEXT-MODE-DECLARATION-GROUP-PROTOTYPE-REF"] .nil), item := (.prim .ref) },
   /- 3132 -/ { field := k!"targetModeDeclarationRef", path := (.first [k!"TARGET-MODE-DECLARATION-REF"] .nil), item := (.prim .ref) }]

/-- `readROperationIRef`, `parser/arxml_parser.py:3110-3117` (the `ROperationInAtomicSwcInstanceRef` it makes) -/
def readROperationIRef_ROperationInAtomicSwcInstanceRef : List RSlot :=
  [/- 3114 -/ { field := k!"timestamp", path := .nil, item := (.attr k!"T" .raw) },
   /- 3114 -/ { field := k!"uuid", path := .nil, item := (.attr k!"UUID" .raw) },
   /- 3115 -/ { field := k!"contextRPortRef", path := (.first [k!"CONTEXT-R-PORT-REF"] .nil), item := (.prim .ref) },
   /- 3116 -/ { field := k!"targetRequiredOperationRef", path := (.first [k!"TARGET-REQUIRED-OPERATION-REF"] .nil), item := (.prim .ref) }]

/-- `readRPortPrototype`, `parser/arxml_parser.py:4341-4346` -/
def readRPortPrototype : List RSlot :=
  /- 4343 -/ readIdentifiable ++
  /- 4344 -/ readAbstractProvidedPortPrototype_RPortPrototype ++
  [/- 4345 -/ { field := k!"requiredInterfaceTRef", path := (.first [k!"REQUIRED-INTERFACE-TREF"] .nil), item := (.prim .ref) }] ++
  /- 4346 -/ readPortPrototype

/-- `readRVariableInAtomicSwcInstanceRef`, `parser/arxml_parser.py:3119-3125` (the `RVariableInAtomicSwcInstanceRef` it makes) -/
def readRVariableInAtomicSwcInstanceRef_RVariableInAtomicSwcInstanceRef : List RSlot :=
  [/- 3123 -/ { field := k!"contextRPortRef", path := (.first [k!"CONTEXT-R-PORT-REF"] .nil), item := (.prim .ref) },
   /- 3124 -/ { field := k!"targetDataElementRef", path := (.first [k!"TARGET-DATA-ELEMENT-REF"] .nil), item := (.prim .ref) }]

/-- `readVariableAccess`, `parser/arxml_parser.py:4185-4188` -/
def readVariableAccess : List RSlot :=
  /- 4186 -/ readIdentifiable ++
  [/- 4187 -/ { field := k!"accessedVariableRef", path := (.first [k!"ACCESSED-VARIABLE"] .nil), item := (.objs [(k!"ACCESSED-VARIABLE", k!"getAutosarVariableRef_AutosarVariableRef")]) },
   /- 4188 -/ { field := k!"scope", path := (.first [k!"SCOPE"] .nil), item := (.prim .lit) }]

/-- `readReceiverComSpec`, `parser/arxml_parser.py:4152-4173` (the `VariableAccess` it makes) -/
def readReceiverComSpec_VariableAccess : List RSlot :=
  [/- 4168 -/ { field := k!"short_name", path := (.first [k!"SHORT-NAME"] .nil), item := .name, req := .always }] ++
  /- 4169 -/ readVariableAccess

/-- `readReferenceBases`, `parser/arxml_parser.py:9385-9393` (the `ReferenceBase` it makes) -/
def readReferenceBases_ReferenceBase : List RSlot :=
  [/- 9388 -/ { field := k!"shortLabel", path := (.first [k!"SHORT-LABEL"] .nil), item := (.prim .lit) },
   /- 9389 -/ { field := k!"isDefault", path := (.first [k!"IS-DEFAULT"] .nil), item := (.prim .boolean) },
   /- 9390 -/ { field := k!"isGlobal", path := (.first [k!"IS-GLOBAL"] .nil), item := (.prim .boolean) },
   /- 9391 -/ { field := k!"BaseIsThisPackage", path := (.first [k!"BASE-IS-THIS-PACKAGE"] .nil), item := (.prim .boolean) },
   /- 9392 -/ { field := k!"packageRef", path := (.first [k!"PACKAGE-REF"] .nil), item := (.prim .ref) }]

/-- `readReferrable`, `parser/arxml_parser.py:907-918` (the `ShortNameFragment` it makes) -/
def readReferrable_ShortNameFragment : List RSlot :=
  [/- 913 -/ { field := k!"timestamp", path := .nil, item := (.attr k!"T" .raw) },
   /- 913 -/ { field := k!"uuid", path := .nil, item := (.attr k!"UUID" .raw) },
   /- 916 -/ { field := k!"role", path := (.first [k!"ROLE"] .nil), item := (.prim .raw) },
   /- 917 -/ { field := k!"fragment", path := (.first [k!"FRAGMENT"] .nil), item := (.prim .lit) }]

/-- `readSectionNamePrefixes`, `parser/arxml_parser.py:2725-2729` -/
def readSectionNamePrefixes : List RSlot :=
  [/- 2727 -/ { field := k!"sectionNamePrefixes", path := (.all k!"SECTION-NAME-PREFIXS" (.all k!"SECTION-NAME-PREFIX" .nil)), item := (.objs [(k!"SECTION-NAME-PREFIX", k!"readSectionNamePrefixes_SectionNamePrefix")]), elems := true, named := true, fresh := true }]

/-- `readStackUsages`, `parser/arxml_parser.py:2773-2786` -/
def readStackUsages : List RSlot :=
  [/- 2777 -/ { field := k!"stackUsages", path := (.all k!"STACK-USAGES" (.all 0 .nil)), item := (.objs [(k!"ROUGH-ESTIMATE-STACK-USAGE", k!"readStackUsages_RoughEstimateStackUsage"), (k!"MEASURED-STACK-USAGE", k!"readStackUsages_MeasuredStackUsage"), (k!"WORST-CASE-STACK-USAGE", k!"readStackUsages_WorstCaseStackUsage")]), elems := true, named := true, fresh := true },
   /- 2786 -/ { field := 0, path := (.all k!"STACK-USAGES" (.all 0 .nil)), item := (.guard [k!"ROUGH-ESTIMATE-STACK-USAGE", k!"MEASURED-STACK-USAGE", k!"WORST-CASE-STACK-USAGE"] .unsupported) }]

/-- `readResourceConsumption`, `parser/arxml_parser.py:2788-2798` (the `ResourceConsumption` it makes) -/
def readResourceConsumption_ResourceConsumption : List RSlot :=
  [/- 2791 -/ { field := k!"short_name", path := (.first [k!"SHORT-NAME"] .nil), item := .name, req := .always }] ++
  /- 2792 -/ readIdentifiable ++
  /- 2793 -/ readAccessCountSets ++
  /- 2794 -/ readExecutionTimes ++
  /- 2795 -/ readHeapUsages ++
  /- 2796 -/ readMemorySections ++
  /- 2797 -/ readSectionNamePrefixes ++
  /- 2798 -/ readStackUsages

/-- `readRootSwCompositionPrototype`, `parser/arxml_parser.py:8832-8847` (the `RootSwCompositionPrototype` it makes) -/
def readRootSwCompositionPrototype_RootSwCompositionPrototype : List RSlot :=
  [/- 8837 -/ { field := k!"short_name", path := (.first [k!"SHORT-NAME"] .nil), item := .name, req := .always }] ++
  /- 8838 -/ readIdentifiable ++
  [/- 8840 -/ { field := k!"calibrationParameterValueSetRefs", path := (.all k!"CALIBRATION-PARAMETER-VALUE-SET-REFS" (.all k!"CALIBRATION-PARAMETER-VALUE-SET-REF" .nil)), item := (.prim .ref) },
   /- 8841 -/ { field := k!"flatMapRef", path := (.first [k!"FLAT-MAP-REF"] .nil), item := (.prim .ref) },
   /- 8842 -/ { field := k!"softwareCompositionTRef", path := (.first [k!"SOFTWARE-COMPOSITION-TREF"] .nil), item := (.prim .ref) }]

/-- `readWorstCaseStackUsage`, `parser/arxml_parser.py:2769-2771`; also `readRoughEstimateStackUsage` -/
def readWorstCaseStackUsage : List RSlot :=
  /- 2770 -/ readStackUsage ++
  [/- 2771 -/ { field := k!"memoryConsumption", path := (.first [k!"MEMORY-CONSUMPTION"] .nil), item := (.prim .positive) }]

/-- `readRptComponent`, `parser/arxml_parser.py:2980-2992` -/
def readRptComponent : List RSlot :=
  [/- 2984 -/ { field := k!"mcDataAssignments", path := (.all k!"MC-DATA-ASSIGNMENTS" (.all k!"ROLE-BASED-MC-DATA-ASSIGNMENT" .nil)), item := (.objs [(k!"ROLE-BASED-MC-DATA-ASSIGNMENT", k!"readRptComponent_RoleBasedMcDataAssignment")]) },
   /- 2989 -/ { field := k!"rpImplPolicy", path := (.first [k!"RP-IMPL-POLICY"] .nil), item := (.objs [(k!"RP-IMPL-POLICY", k!"readRptComponent_RptImplPolicy")]) },
   /- 2991 -/ { field := k!"rptExecutableEntities", path := (.all k!"RPT-EXECUTABLE-ENTITYS" (.all k!"RPT-EXECUTABLE-ENTITY" .nil)), item := (.objs [(k!"RPT-EXECUTABLE-ENTITY", k!"readRptComponent_RptExecutableEntity")]), named := true }]

/-- `readRptExecutableEntity`, `parser/arxml_parser.py:2966-2978` -/
def readRptExecutableEntity : List RSlot :=
  [/- 2968 -/ { field := k!"rptExecutableEntityEvents", path := (.all k!"RPT-EXECUTABLE-ENTITY-EVENTS" (.all k!"RPT-EXECUTABLE-ENTITY-EVENT" .nil)), item := (.objs [(k!"RPT-EXECUTABLE-ENTITY-EVENT", k!"readRptExecutableEntity_RptExecutableEntityEvent")]), named := true },
   /- 2973 -/ { field := k!"rptReads", path := (.all k!"RPT-READS" (.all k!"ROLE-BASED-MC-DATA-ASSIGNMENT" .nil)), item := (.objs [(k!"ROLE-BASED-MC-DATA-ASSIGNMENT", k!"readRptComponent_RoleBasedMcDataAssignment")]) },
   /- 2977 -/ { field := k!"rptWrites", path := (.all k!"RPT-WRITES" (.all k!"ROLE-BASED-MC-DATA-ASSIGNMENT" .nil)), item := (.objs [(k!"ROLE-BASED-MC-DATA-ASSIGNMENT", k!"readRptComponent_RoleBasedMcDataAssignment")]) },
   /- 2978 -/ { field := k!"symbol", path := (.first [k!"SYMBOL"] .nil), item := (.prim .lit) }]

/-- `readRptComponent`, `parser/arxml_parser.py:2980-2992` (the `RptExecutableEntity` it makes) -/
def readRptComponent_RptExecutableEntity : List RSlot :=
  [/- 2991 -/ { field := k!"short_name", path := (.first [k!"SHORT-NAME"] .nil), item := .name, req := .always }] ++
  /- 2992 -/ readRptExecutableEntity

/-- `readRptExecutableEntityEvent`, `parser/arxml_parser.py:2943-2964` -/
def readRptExecutableEntityEvent : List RSlot :=
  [/- 2945 -/ { field := k!"executionContextRefs", path := (.all k!"EXECUTION-CONTEXT-REFS" (.all k!"EXECUTION-CONTEXT-REF" .nil)), item := (.prim .ref) },
   /- 2949 -/ { field := k!"mcDataAssignments", path := (.all k!"MC-DATA-ASSIGNMENTS" (.all k!"ROLE-BASED-MC-DATA-ASSIGNMENT" .nil)), item := (.objs [(k!"ROLE-BASED-MC-DATA-ASSIGNMENT", k!"readRptComponent_RoleBasedMcDataAssignment")]) },
   /- 2950 -/ { field := k!"rptEventId", path := (.first [k!"RPT-EVENT-ID"] .nil), item := (.prim .positive) },
   /- 2955 -/ { field := k!"rptExecutableEntityProperties", path := (.first [k!"RPT-EXECUTABLE-ENTITY-PROPERTIES"] .nil), item := (.objs [(k!"RPT-EXECUTABLE-ENTITY-PROPERTIES", k!"readRptExecutableEntityEvent_RptExecutableEntityProperties")]) },
   /- 2960 -/ { field := k!"rptImplPolicy", path := (.first [k!"RPT-IMPL-POLICY"] .nil), item := (.objs [(k!"RPT-IMPL-POLICY", k!"readRptComponent_RptImplPolicy")]) },
   /- 2962 -/ { field := k!"rptServicePointPostRefs", path := (.all k!"RPT-SERVICE-POINT-POST-REFS" (.all k!"RPT-SERVICE-POINT-POST-REF" .nil)), item := (.prim .ref) },
   /- 2964 -/ { field := k!"rptServicePointPreRefs", path := (.all k!"RPT-SERVICE-POINT-PRE-REFS" (.all k!"RPT-SERVICE-POINT-PRE-REF" .nil)), item := (.prim .ref) }]

/-- `readRptExecutableEntityProperties`, `parser/arxml_parser.py:2933-2937` -/
def readRptExecutableEntityProperties : List RSlot :=
  [/- 2934 -/ { field := k!"maxRptEventId", path := (.first [k!"MAX-RPT-EVENT-ID"] .nil), item := (.prim .positive) },
   /- 2935 -/ { field := k!"minRptEventId", path := (.first [k!"MIN-RPT-EVENT-ID"] .nil), item := (.prim .positive) },
   /- 2936 -/ { field := k!"rptExecutionControl", path := (.first [k!"RPT-EXECUTION-CONTROL"] .nil), item := (.prim .lit) },
   /- 2937 -/ { field := k!"rptServicePoint", path := (.first [k!"RPT-SERVICE-POINT"] .nil), item := (.prim .lit) }]

/-- `readRptExecutableEntityEvent`, `parser/arxml_parser.py:2943-2964` (the `RptExecutableEntityProperties` it makes) -/
def readRptExecutableEntityEvent_RptExecutableEntityProperties : List RSlot :=
  /- 2954 -/ readRptExecutableEntityProperties

/-- `readRptExecutableEntity`, `parser/arxml_parser.py:2966-2978` (the `RptExecutableEntityEvent` it makes) -/
def readRptExecutableEntity_RptExecutableEntityEvent : List RSlot :=
  [/- 2968 -/ { field := k!"short_name", path := (.first [k!"SHORT-NAME"] .nil), item := .name, req := .always }] ++
  /- 2969 -/ readRptExecutableEntityEvent

/-- `readRptServicePoint`, `parser/arxml_parser.py:2939-2941` -/
def readRptServicePoint : List RSlot :=
  [/- 2940 -/ { field := k!"serviceId", path := (.first [k!"SERVICE-ID"] .nil), item := (.prim .positive) },
   /- 2941 -/ { field := k!"symbol", path := (.first [k!"SYMBOL"] .nil), item := (.prim .lit) }]

/-- `readRptSupportData`, `parser/arxml_parser.py:2994-3002` (the `RptComponent` it makes) -/
def readRptSupportData_RptComponent : List RSlot :=
  [/- 2998 -/ { field := k!"short_name", path := (.first [k!"SHORT-NAME"] .nil), item := .name, req := .always }] ++
  /- 2999 -/ readRptComponent

/-- `readRptSupportData`, `parser/arxml_parser.py:2994-3002` (the `RptServicePoint` it makes) -/
def readRptSupportData_RptServicePoint : List RSlot :=
  [/- 3001 -/ { field := k!"short_name", path := (.first [k!"SHORT-NAME"] .nil), item := .name, req := .always }] ++
  /- 3002 -/ readRptServicePoint

/-- `readRunnableEntityArguments`, `parser/arxml_parser.py:3331-3337` -/
def readRunnableEntityArguments : List RSlot :=
  [/- 3335 -/ { field := k!"arguments", path := (.all k!"ARGUMENTS" (.all k!"RUNNABLE-ENTITY-ARGUMENT" .nil)), item := (.objs [(k!"RUNNABLE-ENTITY-ARGUMENT", k!"getRunnableEntityArgument_RunnableEntityArgument")]) },
   /- 3337 -/ { field := 0, path := (.all k!"ARGUMENTS" (.all 0 .nil)), item := (.guard [k!"RUNNABLE-ENTITY-ARGUMENT"] .unsupported) }]

/-- `readRunnableEntityAsynchronousServerCallResultPoint`, `parser/arxml_parser.py:3339-3343` -/
def readRunnableEntityAsynchronousServerCallResultPoint : List RSlot :=
  [/- 3341 -/ { field := k!"elements", path := (.all k!"ASYNCHRONOUS-SERVER-CALL-RESULT-POINTS" (.all k!"ASYNCHRONOUS-SERVER-CALL-RESULT-POINT" .nil)), item := (.objs [(k!"ASYNCHRONOUS-SERVER-CALL-RESULT-POINT", k!"readRunnableEntityAsynchronousServerCallResultPoint_AsynchronousServerCallResultPoint")]), elems := true, named := true, fresh := true }]

/-- `readRunnableEntityDataReadAccesses`, `parser/arxml_parser.py:3058-3059` -/
def readRunnableEntityDataReadAccesses : List RSlot :=
  /- 3059 -/ _readVariableAccesses_DATA_READ_ACCESSS

end Verif.Gen.R
