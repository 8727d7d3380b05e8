import Verif.Gen.Read0
-- generated by tools/gen_codec.py; do not edit
namespace Verif.Gen.R
open Verif Verif.Model

/-- `getRoleBasedBswModuleEntryAssignment`, `parser/arxml_parser.py:1430-1434` (the `RoleBasedBswModuleEntryAssignment` it makes) -/
def getRoleBasedBswModuleEntryAssignment_RoleBasedBswModuleEntryAssignment : List RSlot :=
  [/- 1432 -/ { field := k!"assignedEntryRef", path := (.first [k!"ASSIGNED-ENTRY-REF"] .nil), item := (.prim .ref) },
   /- 1433 -/ { field := k!"role", path := (.first [k!"ROLE"] .nil), item := (.prim .lit) }]

/-- `getRoleBasedDataAssignment`, `parser/arxml_parser.py:1379-1385` (the `RoleBasedDataAssignment` it makes) -/
def getRoleBasedDataAssignment_RoleBasedDataAssignment : List RSlot :=
  [/- 1381 -/ { field := k!"role", path := (.first [k!"ROLE"] .nil), item := (.prim .lit) },
   /- 1382 -/ { field := k!"usedDataElement", path := (.first [k!"USED-DATA-ELEMENT"] .nil), item := (.objs [(k!"USED-DATA-ELEMENT", k!"getAutosarVariableRef_AutosarVariableRef")]) },
   /- 1383 -/ { field := k!"usedParameterElement", path := (.first [k!"USED-PARAMETER-ELEMENT"] .nil), item := (.objs [(k!"USED-PARAMETER-ELEMENT", k!"getAutosarParameterRef_AutosarParameterRef")]) },
   /- 1384 -/ { field := k!"usedPimRef", path := (.first [k!"USED-PIM-REF"] .nil), item := (.prim .ref) }]

/-- `getRoleBasedDataTypeAssignment`, `parser/arxml_parser.py:1400-1404` (the `RoleBasedDataTypeAssignment` it makes) -/
def getRoleBasedDataTypeAssignment_RoleBasedDataTypeAssignment : List RSlot :=
  [/- 1402 -/ { field := k!"role", path := (.first [k!"ROLE"] .nil), item := (.prim .lit) },
   /- 1403 -/ { field := k!"usedImplementationDataTypeRef", path := (.first [k!"USED-IMPLEMENTATION-DATA-TYPE-REF"] .nil), item := (.prim .ref) }]

/-- `getRoleBasedPortAssignment`, `parser/arxml_parser.py:1393-1398` (the `RoleBasedPortAssignment` it makes) -/
def getRoleBasedPortAssignment_RoleBasedPortAssignment : List RSlot :=
  [/- 1395 -/ { field := k!"timestamp", path := .nil, item := (.attr k!"T" .raw) },
   /- 1395 -/ { field := k!"uuid", path := .nil, item := (.attr k!"UUID" .raw) },
   /- 1396 -/ { field := k!"portPrototypeRef", path := (.first [k!"PORT-PROTOTYPE-REF"] .nil), item := (.prim .ref) },
   /- 1397 -/ { field := k!"role", path := (.first [k!"ROLE"] .nil), item := (.prim .lit) }]

/-- `getRuleArguments`, `parser/arxml_parser.py:5280-5289` (the `RuleArguments` it makes) -/
def getRuleArguments_RuleArguments : List RSlot :=
  [/- 5282 -/ { field := k!"timestamp", path := .nil, item := (.attr k!"T" .raw) },
   /- 5282 -/ { field := k!"uuid", path := .nil, item := (.attr k!"UUID" .raw) },
   /- 5283 -/ { field := k!"v", path := (.first [k!"V"] .nil), item := (.prim .numerical) },
   /- 5284 -/ { field := k!"vf", path := (.first [k!"VF"] .nil), item := (.prim .numerical) },
   /- 5285 -/ { field := k!"vt", path := (.first [k!"VT"] .nil), item := (.prim .lit) },
   /- 5288 -/ { field := k!"vtf", path := (.first [k!"VTF"] .nil), item := (.objs [(k!"VTF", k!"getNumericalOrText_NumericalOrText")]) }]

/-- `getRuleBasedAxisCont`, `parser/arxml_parser.py:5302-5310` (the `RuleBasedAxisCont` it makes) -/
def getRuleBasedAxisCont_RuleBasedAxisCont : List RSlot :=
  [/- 5304 -/ { field := k!"timestamp", path := .nil, item := (.attr k!"T" .raw) },
   /- 5304 -/ { field := k!"uuid", path := .nil, item := (.attr k!"UUID" .raw) },
   /- 5305 -/ { field := k!"category", path := (.first [k!"CATEGORY"] .nil), item := (.prim .lit) },
   /- 5306 -/ { field := k!"unitRef", path := (.first [k!"UNIT-REF"] .nil), item := (.prim .ref) },
   /- 5307 -/ { field := k!"swArraysize", path := (.first [k!"SW-ARRAYSIZE"] .nil), item := (.objs [(k!"SW-ARRAYSIZE", k!"getValueList_ValueList")]) },
   /- 5308 -/ { field := k!"swAxisIndex", path := (.first [k!"SW-AXIS-INDEX"] .nil), item := (.prim .lit) },
   /- 5309 -/ { field := k!"ruleBasedValues", path := (.first [k!"RULE-BASED-VALUES"] .nil), item := (.objs [(k!"RULE-BASED-VALUES", k!"getRuleBasedValueSpecification_RuleBasedValueSpecification")]) }]

/-- `getRuleBasedValueCont`, `parser/arxml_parser.py:5312-5321` (the `RuleBasedValueCont` it makes) -/
def getRuleBasedValueCont_RuleBasedValueCont : List RSlot :=
  [/- 5317 -/ { field := k!"timestamp", path := .nil, item := (.attr k!"T" .raw) },
   /- 5317 -/ { field := k!"uuid", path := .nil, item := (.attr k!"UUID" .raw) },
   /- 5318 -/ { field := k!"unitRef", path := (.first [k!"UNIT-REF"] .nil), item := (.prim .ref) },
   /- 5319 -/ { field := k!"swArraysize", path := (.first [k!"SW-ARRAYSIZE"] .nil), item := (.objs [(k!"SW-ARRAYSIZE", k!"getValueList_ValueList")]) },
   /- 5320 -/ { field := k!"ruleBasedValues", path := (.first [k!"RULE-BASED-VALUES"] .nil), item := (.objs [(k!"RULE-BASED-VALUES", k!"getRuleBasedValueSpecification_RuleBasedValueSpecification")]) }]

/-- `getRuleBasedValueSpecification`, `parser/arxml_parser.py:5291-5300` (the `RuleBasedValueSpecification` it makes) -/
def getRuleBasedValueSpecification_RuleBasedValueSpecification : List RSlot :=
  [/- 5295 -/ { field := k!"timestamp", path := .nil, item := (.attr k!"T" .raw) },
   /- 5295 -/ { field := k!"uuid", path := .nil, item := (.attr k!"UUID" .raw) },
   /- 5296 -/ { field := k!"rule", path := (.first [k!"RULE"] .nil), item := (.prim .lit) },
   /- 5298 -/ { field := k!"arguments", path := (.all k!"ARGUMENTSS" (.all k!"RULE-ARGUMENTS" .nil)), item := (.objs [(k!"RULE-ARGUMENTS", k!"getRuleArguments_RuleArguments")]) },
   /- 5299 -/ { field := k!"maxSizeToFill", path := (.first [k!"MAX-SIZE-TO-FILL"] .nil), item := (.prim .integer) }]

/-- `getRunnableEntityArgument`, `parser/arxml_parser.py:3067-3070` (the `RunnableEntityArgument` it makes) -/
def getRunnableEntityArgument_RunnableEntityArgument : List RSlot :=
  [/- 3069 -/ { field := k!"symbol", path := (.first [k!"SYMBOL"] .nil), item := (.prim .lit) }]

/-- `getSdClientConfig`, `parser/arxml_parser.py:6082-6092` (the `SdClientConfig` it makes) -/
def getSdClientConfig_SdClientConfig : List RSlot :=
  [/- 6087 -/ { field := k!"clientServiceMajorVersion", path := (.first [k!"CLIENT-SERVICE-MAJOR-VERSION"] .nil), item := (.prim .positive) },
   /- 6088 -/ { field := k!"clientServiceMinorVersion", path := (.first [k!"CLIENT-SERVICE-MINOR-VERSION"] .nil), item := (.prim .positive) },
   /- 6089 -/ { field := k!"initialFindBehavior", path := (.first [k!"INITIAL-FIND-BEHAVIOR"] .nil), item := (.objs [(k!"INITIAL-FIND-BEHAVIOR", k!"getInitialSdDelayConfig_InitialSdDelayConfig")]) },
   /- 6090 -/ { field := k!"requestResponseDelay", path := (.first [k!"REQUEST-RESPONSE-DELAY"] .nil), item := (.objs [(k!"REQUEST-RESPONSE-DELAY", k!"getRequestResponseDelay_RequestResponseDelay")]) },
   /- 6091 -/ { field := k!"ttl", path := (.first [k!"TTL"] .nil), item := (.prim .positive) }]

/-- `getSdServerConfig`, `parser/arxml_parser.py:6136-6147` (the `SdServerConfig` it makes) -/
def getSdServerConfig_SdServerConfig : List RSlot :=
  [/- 6141 -/ { field := k!"initialOfferBehavior", path := (.first [k!"INITIAL-OFFER-BEHAVIOR"] .nil), item := (.objs [(k!"INITIAL-OFFER-BEHAVIOR", k!"getInitialSdDelayConfig_InitialSdDelayConfig")]) },
   /- 6142 -/ { field := k!"offerCyclicDelay", path := (.first [k!"OFFER-CYCLIC-DELAY"] .nil), item := (.prim .time) },
   /- 6143 -/ { field := k!"requestResponseDelay", path := (.first [k!"REQUEST-RESPONSE-DELAY"] .nil), item := (.objs [(k!"REQUEST-RESPONSE-DELAY", k!"getRequestResponseDelay_RequestResponseDelay")]) },
   /- 6144 -/ { field := k!"serverServiceMajorVersion", path := (.first [k!"SERVER-SERVICE-MAJOR-VERSION"] .nil), item := (.prim .positive) },
   /- 6145 -/ { field := k!"serverServiceMinorVersion", path := (.first [k!"SERVER-SERVICE-MINOR-VERSION"] .nil), item := (.prim .positive) },
   /- 6146 -/ { field := k!"ttl", path := (.first [k!"TTL"] .nil), item := (.prim .positive) }]

/-- `readSdgCaption`, `parser/arxml_parser.py:771-774` -/
def readSdgCaption : List RSlot :=
  [/- 774 -/ { field := k!"sdgCaption", path := (.first [k!"SDG-CAPTION"] .nil), item := (.objs [(k!"SDG-CAPTION", k!"readSdgCaption_SdgCaption")]), named := true, fresh := true }]

/-- `readSd`, `parser/arxml_parser.py:751-759` -/
def readSd : List RSlot :=
  [/- 759 -/ { field := k!"sd", path := (.all k!"SD" .nil), item := (.objs [(k!"SD", k!"readSd_Sd")]) }]

/-- `readSdf`, `parser/arxml_parser.py:761-769` -/
def readSdf : List RSlot :=
  [/- 769 -/ { field := k!"sdf", path := (.all k!"SDF" .nil), item := (.objs [(k!"SDF", k!"readSdf_Sdf")]) }]

/-- `readSdgSdxRefs`, `parser/arxml_parser.py:776-778` -/
def readSdgSdxRefs : List RSlot :=
  [/- 778 -/ { field := k!"sdxRefs", path := (.all k!"SDX-REF" .nil), item := (.prim .ref) }]

/-- `readSdgSdxfRefs`, `parser/arxml_parser.py:780-782` -/
def readSdgSdxfRefs : List RSlot :=
  [/- 782 -/ { field := k!"sdxfRefs", path := (.all k!"SDXF" .nil), item := (.prim .ref) }]

/-- `getSdg`, `parser/arxml_parser.py:784-799` (the `SdgContents` it makes) -/
def getSdg_SdgContents : List RSlot :=
  /- 791 -/ readSd ++
  /- 792 -/ readSdf ++
  [/- 794 -/ { field := k!"sdg", path := (.all k!"SDG" .nil), item := (.objs [(k!"SDG", k!"getSdg_Sdg")]) }] ++
  /- 795 -/ readSdgSdxRefs ++
  /- 796 -/ readSdgSdxfRefs

/-- `getSdg`, `parser/arxml_parser.py:784-799` (the `Sdg` it makes) -/
def getSdg_Sdg : List RSlot :=
  [/- 786 -/ { field := k!"timestamp", path := .nil, item := (.attr k!"T" .raw) },
   /- 786 -/ { field := k!"uuid", path := .nil, item := (.attr k!"UUID" .raw) },
   /- 788 -/ { field := k!"gid", path := .nil, item := (.attr k!"GID" .lit) }] ++
  /- 789 -/ readSdgCaption ++
  /- 798 -/ part k!"sdgContentsType" .nil getSdg_SdgContents

/-- `getSecureCommunicationProps`, `parser/arxml_parser.py:6756-6772` (the `SecureCommunicationProps` it makes) -/
def getSecureCommunicationProps_SecureCommunicationProps : List RSlot :=
  [/- 6761 -/ { field := k!"authDataFreshnessLength", path := (.first [k!"AUTH-DATA-FRESHNESS-LENGTH"] .nil), item := (.prim .positive) },
   /- 6762 -/ { field := k!"authDataFreshnessStartPosition", path := (.first [k!"AUTH-DATA-FRESHNESS-START-POSITION"] .nil), item := (.prim .positive) },
   /- 6763 -/ { field := k!"authenticationBuildAttempts", path := (.first [k!"AUTHENTICATION-BUILD-ATTEMPTS"] .nil), item := (.prim .positive) },
   /- 6764 -/ { field := k!"authenticationRetries", path := (.first [k!"AUTHENTICATION-RETRIES"] .nil), item := (.prim .positive) },
   /- 6765 -/ { field := k!"dataId", path := (.first [k!"DATA-ID"] .nil), item := (.prim .positive) },
   /- 6766 -/ { field := k!"freshnessValueId", path := (.first [k!"FRESHNESS-VALUE-ID"] .nil), item := (.prim .positive) },
   /- 6767 -/ { field := k!"messageLinkLength", path := (.first [k!"MESSAGE-LINK-LENGTH"] .nil), item := (.prim .positive) },
   /- 6768 -/ { field := k!"messageLinkPosition", path := (.first [k!"MESSAGE-LINK-POSITION"] .nil), item := (.prim .positive) },
   /- 6769 -/ { field := k!"secondaryFreshnessValueId", path := (.first [k!"SECONDARY-FRESHNESS-VALUE-ID"] .nil), item := (.prim .positive) },
   /- 6770 -/ { field := k!"securedAreaLength", path := (.first [k!"SECURED-AREA-LENGTH"] .nil), item := (.prim .positive) },
   /- 6771 -/ { field := k!"securedAreaOffset", path := (.first [k!"SECURED-AREA-OFFSET"] .nil), item := (.prim .positive) }]

/-- `getServerComSpec`, `parser/arxml_parser.py:4501-4507` (the `ServerComSpec` it makes) -/
def getServerComSpec_ServerComSpec : List RSlot :=
  /- 4503 -/ readPPortComSpec ++
  [/- 4504 -/ { field := k!"operationRef", path := (.first [k!"OPERATION-REF"] .nil), item := (.prim .ref) },
   /- 4505 -/ { field := k!"queueLength", path := (.first [k!"QUEUE-LENGTH"] .nil), item := (.prim .positive) }] ++
  /- 4506 -/ readTransformationComSpecPropss_ClientComSpec

/-- `readSoAdConfigConnectionBundles`, `parser/arxml_parser.py:6018-6025` -/
def readSoAdConfigConnectionBundles : List RSlot :=
  [/- 6022 -/ { field := k!"connectionBundles", path := (.all k!"CONNECTION-BUNDLES" (.all k!"SOCKET-CONNECTION-BUNDLE" .nil)), item := (.objs [(k!"SOCKET-CONNECTION-BUNDLE", k!"readSoAdConfigConnectionBundles_SocketConnectionBundle")]), named := true, fresh := true },
   /- 6025 -/ { field := 0, path := (.all k!"CONNECTION-BUNDLES" (.all 0 .nil)), item := (.guard [k!"SOCKET-CONNECTION-BUNDLE"] .unsupported) }]

/-- `readSoAdConfigSocketAddresses`, `parser/arxml_parser.py:6221-6228` -/
def readSoAdConfigSocketAddresses : List RSlot :=
  [/- 6225 -/ { field := k!"socketAddresses", path := (.all k!"SOCKET-ADDRESSS" (.all k!"SOCKET-ADDRESS" .nil)), item := (.objs [(k!"SOCKET-ADDRESS", k!"readSoAdConfigSocketAddresses_SocketAddress")]), named := true, fresh := true },
   /- 6228 -/ { field := 0, path := (.all k!"SOCKET-ADDRESSS" (.all 0 .nil)), item := (.guard [k!"SOCKET-ADDRESS"] .unsupported) }]

/-- `getSoAdConfig`, `parser/arxml_parser.py:6230-6237` (the `SoAdConfig` it makes) -/
def getSoAdConfig_SoAdConfig : List RSlot :=
  /- 6235 -/ readSoAdConfigConnectionBundles ++
  /- 6236 -/ readSoAdConfigSocketAddresses

/-- `getSocketConnectionIpduIdentifier`, `parser/arxml_parser.py:5969-5978` (the `SocketConnectionIpduIdentifier` it makes) -/
def getSocketConnectionIpduIdentifier_SocketConnectionIpduIdentifier : List RSlot :=
  [/- 5973 -/ { field := k!"headerId", path := (.first [k!"HEADER-ID"] .nil), item := (.prim .positive) },
   /- 5974 -/ { field := k!"pduCollectionSemantics", path := (.first [k!"PDU-COLLECTION-SEMANTICS"] .nil), item := (.prim .lit) },
   /- 5975 -/ { field := k!"pduCollectionTrigger", path := (.first [k!"PDU-COLLECTION-TRIGGER"] .nil), item := (.prim .lit) },
   /- 5976 -/ { field := k!"PduRef", path := (.first [k!"PDU-REF"] .nil), item := (.prim .ref) },
   /- 5977 -/ { field := k!"pduTriggeringRef", path := (.first [k!"PDU-TRIGGERING-REF"] .nil), item := (.prim .ref) }]

/-- `getSocketConnection`, `parser/arxml_parser.py:5990-6004` (the `SocketConnection` it makes) -/
def getSocketConnection_SocketConnection : List RSlot :=
  [/- 5994 -/ { field := k!"clientIpAddrFromConnectionRequest", path := (.first [k!"CLIENT-IP-ADDR-FROM-CONNECTION-REQUEST"] .nil), item := (.prim .boolean) },
   /- 5995 -/ { field := k!"clientPortFromConnectionRequest", path := (.first [k!"CLIENT-PORT-FROM-CONNECTION-REQUEST"] .nil), item := (.prim .boolean) },
   /- 5996 -/ { field := k!"clientPortRef", path := (.first [k!"CLIENT-PORT-REF"] .nil), item := (.prim .ref) },
   /- 5998 -/ { field := k!"pdus", path := (.all k!"PDUS" (.all k!"SOCKET-CONNECTION-IPDU-IDENTIFIER" .nil)), item := (.objs [(k!"SOCKET-CONNECTION-IPDU-IDENTIFIER", k!"getSocketConnectionIpduIdentifier_SocketConnectionIpduIdentifier")]) },
   /- 5999 -/ { field := k!"pduCollectionMaxBufferSize", path := (.first [k!"PDU-COLLECTION-MAX-BUFFER-SIZE"] .nil), item := (.prim .positive) },
   /- 6000 -/ { field := k!"pduCollectionTimeout", path := (.first [k!"PDU-COLLECTION-TIMEOUT"] .nil), item := (.prim .time) },
   /- 6001 -/ { field := k!"runtimeIpAddressConfiguration", path := (.first [k!"RUNTIME-IP-ADDRESS-CONFIGURATION"] .nil), item := (.prim .lit) },
   /- 6002 -/ { field := k!"runtimePortConfiguration", path := (.first [k!"RUNTIME-PORT-CONFIGURATION"] .nil), item := (.prim .lit) },
   /- 6003 -/ { field := k!"shortLabel", path := (.first [k!"SHORT-LABEL"] .nil), item := (.prim .lit) },
   /- 5987 -/ { field := 0, path := (.all k!"PDUS" (.all 0 .nil)), item := (.guard [k!"SOCKET-CONNECTION-IPDU-IDENTIFIER"] .unsupported) }]

/-- `getStructuredReq`, `parser/arxml_parser.py:3701-3720` (the `StructuredReq` it makes) -/
def getStructuredReq_StructuredReq : List RSlot :=
  [/- 3706 -/ { field := k!"timestamp", path := .nil, item := (.attr k!"T" .raw) },
   /- 3706 -/ { field := k!"uuid", path := .nil, item := (.attr k!"UUID" .raw) },
   /- 3707 -/ { field := k!"date", path := (.first [k!"DATE"] .nil), item := (.prim .lit) },
   /- 3708 -/ { field := k!"importance", path := (.first [k!"IMPORTANCE"] .nil), item := (.prim .lit) },
   /- 3709 -/ { field := k!"issuedBy", path := (.first [k!"ISSUED-BY"] .nil), item := (.prim .lit) },
   /- 3710 -/ { field := k!"type", path := (.first [k!"TYPE"] .nil), item := (.prim .lit) },
   /- 3711 -/ { field := k!"description", path := (.first [k!"DESCRIPTION"] .nil), item := (.objs [(k!"DESCRIPTION", k!"getDocumentationBlock_DocumentationBlock")]) },
   /- 3712 -/ { field := k!"rationale", path := (.first [k!"RATIONALE"] .nil), item := (.objs [(k!"RATIONALE", k!"getDocumentationBlock_DocumentationBlock")]) },
   /- 3713 -/ { field := k!"dependencies", path := (.first [k!"DEPENDENCIES"] .nil), item := (.objs [(k!"DEPENDENCIES", k!"getDocumentationBlock_DocumentationBlock")]) },
   /- 3714 -/ { field := k!"useCase", path := (.first [k!"USE-CASE"] .nil), item := (.objs [(k!"USE-CASE", k!"getDocumentationBlock_DocumentationBlock")]) },
   /- 3715 -/ { field := k!"conflicts", path := (.first [k!"CONFLICTS"] .nil), item := (.objs [(k!"CONFLICTS", k!"getDocumentationBlock_DocumentationBlock")]) },
   /- 3716 -/ { field := k!"supportingMaterial", path := (.first [k!"SUPPORTING-MATERIAL"] .nil), item := (.objs [(k!"SUPPORTING-MATERIAL", k!"getDocumentationBlock_DocumentationBlock")]) },
   /- 3717 -/ { field := k!"remark", path := (.first [k!"REMARK"] .nil), item := (.objs [(k!"REMARK", k!"getDocumentationBlock_DocumentationBlock")]) },
   /- 3719 -/ { field := k!"testedItemRefs", path := (.all k!"TESTED-ITEM-REFS" (.all k!"TESTED-ITEM-REF" .nil)), item := (.prim .refDest) }]

/-- `getSubElementMapping`, `parser/arxml_parser.py:8940-8954` (the `SubElementMapping` it makes) -/
def getSubElementMapping_SubElementMapping : List RSlot :=
  [/- 8944 -/ { field := k!"firstElement", path := (.all k!"FIRST-ELEMENTS" (.all k!"APPLICATION-COMPOSITE-DATA-TYPE-SUB-ELEMENT-REF" (.first [k!"APPLICATION-COMPOSITE-ELEMENT-IREF"] .nil))), item := (.objs [(k!"APPLICATION-COMPOSITE-ELEMENT-IREF", k!"getApplicationCompositeElementInPortInterfaceInstanceRef_ApplicationCompositeElementInPortInterfaceInstanceRef")]), last := true },
   /- 8949 -/ { field := k!"secondElement", path := (.all k!"SECOND-ELEMENTS" (.all k!"APPLICATION-COMPOSITE-DATA-TYPE-SUB-ELEMENT-REF" (.first [k!"APPLICATION-COMPOSITE-ELEMENT-IREF"] .nil))), item := (.objs [(k!"APPLICATION-COMPOSITE-ELEMENT-IREF", k!"getApplicationCompositeElementInPortInterfaceInstanceRef_ApplicationCompositeElementInPortInterfaceInstanceRef")]), last := true },
   /- 8953 -/ { field := k!"textTableMappings", path := (.all k!"TEXT-TABLE-MAPPINGS" (.all k!"TEXT-TABLE-MAPPING" .nil)), item := (.objs [(k!"TEXT-TABLE-MAPPING", k!"getTextTableMapping_TextTableMapping")]) },
   /- 8946 -/ { field := 0, path := (.all k!"FIRST-ELEMENTS" (.all 0 .nil)), item := (.guard [k!"APPLICATION-COMPOSITE-DATA-TYPE-SUB-ELEMENT-REF"] .unsupported) },
   /- 8951 -/ { field := 0, path := (.all k!"SECOND-ELEMENTS" (.all 0 .nil)), item := (.guard [k!"APPLICATION-COMPOSITE-DATA-TYPE-SUB-ELEMENT-REF"] .unsupported) }]

/-- `getSwAxisGeneric`, `parser/arxml_parser.py:3911-3919` (the `SwAxisGeneric` it makes) -/
def getSwAxisGeneric_SwAxisGeneric : List RSlot :=
  [/- 3913 -/ { field := k!"timestamp", path := .nil, item := (.attr k!"T" .raw) },
   /- 3913 -/ { field := k!"uuid", path := .nil, item := (.attr k!"UUID" .raw) },
   /- 3914 -/ { field := k!"swAxisTypeRef", path := (.first [k!"SW-AXIS-TYPE-REF"] .nil), item := (.prim .ref) },
   /- 3918 -/ { field := k!"swGenericAxisParams", path := (.first [k!"SW-GENERIC-AXIS-PARAMS"] (.all k!"SW-GENERIC-AXIS-PARAM" .nil)), item := (.objs [(k!"SW-GENERIC-AXIS-PARAM", k!"getSwGenericAxisParam_SwGenericAxisParam")]) }]

/-- `getSwAxisGrouped`, `parser/arxml_parser.py:3929-3934` (the `SwAxisGrouped` it makes) -/
def getSwAxisGrouped_SwAxisGrouped : List RSlot :=
  [/- 3931 -/ { field := k!"maxGradient", path := (.first [k!"MAX-GRADIENT"] .nil), item := (.prim .float) },
   /- 3932 -/ { field := k!"monotony", path := (.first [k!"MONOTONY"] .nil), item := (.prim .lit) },
   /- 3933 -/ { field := k!"sharedAxisTypeRef", path := (.first [k!"SHARED-AXIS-TYPE-REF"] .nil), item := (.prim .ref) }]

/-- `getSwAxisIndividual`, `parser/arxml_parser.py:3896-3909` (the `SwAxisIndividual` it makes) -/
def getSwAxisIndividual_SwAxisIndividual : List RSlot :=
  [/- 3898 -/ { field := k!"timestamp", path := .nil, item := (.attr k!"T" .raw) },
   /- 3898 -/ { field := k!"uuid", path := .nil, item := (.attr k!"UUID" .raw) },
   /- 3899 -/ { field := k!"maxGradient", path := (.first [k!"MAX-GRADIENT"] .nil), item := (.prim .float) },
   /- 3900 -/ { field := k!"monotony", path := (.first [k!"MONOTONY"] .nil), item := (.prim .lit) },
   /- 3901 -/ { field := k!"inputVariableTypeRef", path := (.first [k!"INPUT-VARIABLE-TYPE-REF"] .nil), item := (.prim .ref) },
   /- 3902 -/ { field := k!"compuMethodRef", path := (.first [k!"COMPU-METHOD-REF"] .nil), item := (.prim .ref) },
   /- 3903 -/ { field := k!"swMaxAxisPoints", path := (.first [k!"SW-MAX-AXIS-POINTS"] .nil), item := (.prim .numerical) },
   /- 3904 -/ { field := k!"swMinAxisPoints", path := (.first [k!"SW-MIN-AXIS-POINTS"] .nil), item := (.prim .numerical) },
   /- 3905 -/ { field := k!"dataConstrRef", path := (.first [k!"DATA-CONSTR-REF"] .nil), item := (.prim .ref) },
   /- 3908 -/ { field := k!"swAxisGeneric", path := (.first [k!"SW-AXIS-GENERIC"] .nil), item := (.objs [(k!"SW-AXIS-GENERIC", k!"getSwAxisGeneric_SwAxisGeneric")]) }]

/-- `getSwCalprmAxisSet`, `parser/arxml_parser.py:3951-3957` (the `SwCalprmAxisSet` it makes) -/
def getSwCalprmAxisSet_SwCalprmAxisSet : List RSlot :=
  [/- 3956 -/ { field := k!"_swCalprmAxis", path := (.all k!"SW-CALPRM-AXIS-SET" (.all k!"SW-CALPRM-AXIS" .nil)), item := (.objs [(k!"SW-CALPRM-AXIS", k!"getSwCalprmAxis_SwCalprmAxis")]) }]

/-- `getSwCalprmAxis`, `parser/arxml_parser.py:3936-3949` (the `SwCalprmAxis` it makes) -/
def getSwCalprmAxis_SwCalprmAxis : List RSlot :=
  [/- 3938 -/ { field := k!"swAxisIndex", path := (.first [k!"SW-AXIS-INDEX"] .nil), item := (.prim .lit) },
   /- 3939 -/ { field := k!"category", path := (.first [k!"CATEGORY"] .nil), item := (.prim .lit) },
   /- 3945 -/ { field := k!"swCalprmAxisTypeProps", path := (.pick [k!"SW-AXIS-GROUPED", k!"SW-AXIS-INDIVIDUAL"] .nil), item := (.objs [(k!"SW-AXIS-GROUPED", k!"getSwAxisGrouped_SwAxisGrouped"), (k!"SW-AXIS-INDIVIDUAL", k!"getSwAxisIndividual_SwAxisIndividual")]) },
   /- 3946 -/ { field := k!"swCalibrationAccess", path := (.first [k!"SW-CALIBRATION-ACCESS"] .nil), item := (.prim .lit) },
   /- 3947 -/ { field := k!"displayFormat", path := (.first [k!"DISPLAY-FORMAT"] .nil), item := (.prim .lit) }]

/-- `readSwDataDefProsInvalidValue`, `parser/arxml_parser.py:3959-3962` -/
def readSwDataDefProsInvalidValue : List RSlot :=
  [/- 5392 -/ { field := 0, path := (.first [k!"INVALID-VALUE", 0] .nil), item := (.guard [k!"APPLICATION-VALUE-SPECIFICATION", k!"APPLICATION-RULE-BASED-VALUE-SPECIFICATION", k!"COMPOSITE-RULE-BASED-VALUE-SPECIFICATION", k!"RECORD-VALUE-SPECIFICATION", k!"NUMERICAL-VALUE-SPECIFICATION", k!"ARRAY-VALUE-SPECIFICATION", k!"TEXT-VALUE-SPECIFICATION", k!"CONSTANT-REFERENCE"] .unbound) },
   /- 3962 -/ { field := k!"invalidValue", path := (.first [k!"INVALID-VALUE", 0] .nil), item := (.objs [(k!"APPLICATION-VALUE-SPECIFICATION", k!"getApplicationValueSpecification_ApplicationValueSpecification"), (k!"APPLICATION-RULE-BASED-VALUE-SPECIFICATION", k!"getApplicationRuleBasedValueSpecification_ApplicationRuleBasedValueSpecification"), (k!"COMPOSITE-RULE-BASED-VALUE-SPECIFICATION", k!"getCompositeRuleBasedValueSpecification_CompositeRuleBasedValueSpecification"), (k!"RECORD-VALUE-SPECIFICATION", k!"getRecordValueSpecification_RecordValueSpecification"), (k!"NUMERICAL-VALUE-SPECIFICATION", k!"getNumericalValueSpecification_NumericalValueSpecification"), (k!"ARRAY-VALUE-SPECIFICATION", k!"getArrayValueSpecification_ArrayValueSpecification"), (k!"TEXT-VALUE-SPECIFICATION", k!"getTextValueSpecification_TextValueSpecification"), (k!"CONSTANT-REFERENCE", k!"getConstantReference_ConstantReference")]) }]

/-- `readSwDataDefPropsBits`, `parser/arxml_parser.py:4006-4019` -/
def readSwDataDefPropsBits : List RSlot :=
  [/- 4012 -/ { field := k!"swBitRepresentation", path := (.first [k!"SW-BIT-REPRESENTATION"] .nil), item := (.objs [(k!"SW-BIT-REPRESENTATION", k!"readSwDataDefPropsBits_SwBitRepresentation")]) },
   /- 4014 -/ { field := k!"swValueBlockSize", path := (.first [k!"SW-VALUE-BLOCK-SIZE"] .nil), item := (.prim .numerical) },
   /- 4019 -/ { field := k!"swValueBlockSizeMults", path := (.all k!"SW-VALUE-BLOCK-SIZE-MULTS" (.all k!"NUMERICAL-VALUE-VARIATION-POINT" (.pick [k!"VALUE", k!"V"] .nil))), item := (.prim .numerical) }]

/-- `readSwComparisonVariables`, `parser/arxml_parser.py:4021-4023` -/
def readSwComparisonVariables : List RSlot :=
  [/- 4023 -/ { field := k!"swComparisonVariables", path := (.all k!"SW-COMPARISON-VARIABLES" (.all k!"SW-VARIABLE-REF-PROXY" .nil)), item := (.objs [(k!"SW-VARIABLE-REF-PROXY", k!"readSwVariableRefProxy_SwVariableRefProxy")]) }]

/-- `readSwDataDependency`, `parser/arxml_parser.py:4036-4057` -/
def readSwDataDependency : List RSlot :=
  [/- 4057 -/ { field := k!"swDataDependency", path := (.first [k!"SW-DATA-DEPENDENCY"] .nil), item := (.objs [(k!"SW-DATA-DEPENDENCY", k!"readSwDataDependency_SwDataDependency")]) }]

/-- `readSwHostVariable`, `parser/arxml_parser.py:4025-4028` -/
def readSwHostVariable : List RSlot :=
  [/- 4028 -/ { field := k!"swHostVariable", path := (.first [k!"SW-HOST-VARIABLE"] .nil), item := (.objs [(k!"SW-HOST-VARIABLE", k!"readSwVariableRefProxy_SwVariableRefProxy")]) }]

/-- `readSwRefTiming`, `parser/arxml_parser.py:4065-4070` -/
def readSwRefTiming : List RSlot :=
  [/- 4070 -/ { field := k!"swRefreshTiming", path := (.first [k!"SW-REFRESH-TIMING"] .nil), item := (.objs [(k!"SW-REFRESH-TIMING", k!"readSwRefTiming_MultidimensionalTime")]) }]

/-- `getSwDataDefProps`, `parser/arxml_parser.py:3964-4004` (the `SwDataDefProps` it makes) -/
def getSwDataDefProps_SwDataDefProps : List RSlot :=
  [/- 3971 -/ { field := k!"timestamp", path := (.need (.first [k!"SW-DATA-DEF-PROPS-VARIANTS", k!"SW-DATA-DEF-PROPS-CONDITIONAL"] .nil) .nil), item := (.attr k!"T" .raw) },
   /- 3971 -/ { field := k!"uuid", path := (.need (.first [k!"SW-DATA-DEF-PROPS-VARIANTS", k!"SW-DATA-DEF-PROPS-CONDITIONAL"] .nil) .nil), item := (.attr k!"UUID" .raw) },
   /- 3974 -/ { field := k!"annotations", path := (.first [k!"SW-DATA-DEF-PROPS-VARIANTS", k!"SW-DATA-DEF-PROPS-CONDITIONAL"] (.all k!"ANNOTATIONS" (.all k!"ANNOTATION" .nil))), item := (.objs [(k!"ANNOTATION", k!"getAnnotations_Annotation")]) },
   /- 3976 -/ { field := k!"displayPresentation", path := (.first [k!"SW-DATA-DEF-PROPS-VARIANTS", k!"SW-DATA-DEF-PROPS-CONDITIONAL"] (.first [k!"DISPLAY-PRESENTATION"] .nil)), item := (.prim .lit) },
   /- 3977 -/ { field := k!"baseTypeRef", path := (.first [k!"SW-DATA-DEF-PROPS-VARIANTS", k!"SW-DATA-DEF-PROPS-CONDITIONAL"] (.first [k!"BASE-TYPE-REF"] .nil)), item := (.prim .ref) },
   /- 3978 -/ { field := k!"dataConstrRef", path := (.first [k!"SW-DATA-DEF-PROPS-VARIANTS", k!"SW-DATA-DEF-PROPS-CONDITIONAL"] (.first [k!"DATA-CONSTR-REF"] .nil)), item := (.prim .ref) },
   /- 3979 -/ { field := k!"compuMethodRef", path := (.first [k!"SW-DATA-DEF-PROPS-VARIANTS", k!"SW-DATA-DEF-PROPS-CONDITIONAL"] (.first [k!"COMPU-METHOD-REF"] .nil)), item := (.prim .ref) },
   /- 3980 -/ { field := k!"swAddrMethodRef", path := (.first [k!"SW-DATA-DEF-PROPS-VARIANTS", k!"SW-DATA-DEF-PROPS-CONDITIONAL"] (.first [k!"SW-ADDR-METHOD-REF"] .nil)), item := (.prim .ref) },
   /- 3981 -/ { field := k!"swAlignment", path := (.first [k!"SW-DATA-DEF-PROPS-VARIANTS", k!"SW-DATA-DEF-PROPS-CONDITIONAL"] (.first [k!"SW-ALIGNMENT"] .nil)), item := (.prim .lit) },
   /- 3982 -/ { field := k!"swImplPolicy", path := (.first [k!"SW-DATA-DEF-PROPS-VARIANTS", k!"SW-DATA-DEF-PROPS-CONDITIONAL"] (.first [k!"SW-IMPL-POLICY"] .nil)), item := (.prim .lit) },
   /- 3983 -/ { field := k!"swIntendedResolution", path := (.first [k!"SW-DATA-DEF-PROPS-VARIANTS", k!"SW-DATA-DEF-PROPS-CONDITIONAL"] (.first [k!"SW-INTENDED-RESOLUTION"] .nil)), item := (.prim .numerical) },
   /- 3984 -/ { field := k!"implementationDataTypeRef", path := (.first [k!"SW-DATA-DEF-PROPS-VARIANTS", k!"SW-DATA-DEF-PROPS-CONDITIONAL"] (.first [k!"IMPLEMENTATION-DATA-TYPE-REF"] .nil)), item := (.prim .ref) },
   /- 3985 -/ { field := k!"stepSize", path := (.first [k!"SW-DATA-DEF-PROPS-VARIANTS", k!"SW-DATA-DEF-PROPS-CONDITIONAL"] (.first [k!"STEP-SIZE"] .nil)), item := (.prim .float) },
   /- 3986 -/ { field := k!"swCalibrationAccess", path := (.first [k!"SW-DATA-DEF-PROPS-VARIANTS", k!"SW-DATA-DEF-PROPS-CONDITIONAL"] (.first [k!"SW-CALIBRATION-ACCESS"] .nil)), item := (.prim .lit) }] ++
  /- 3987 -/ part k!"swCalprmAxisSet" (.first [k!"SW-DATA-DEF-PROPS-VARIANTS", k!"SW-DATA-DEF-PROPS-CONDITIONAL"] .nil) getSwCalprmAxisSet_SwCalprmAxisSet ++
  [/- 3988 -/ { field := k!"swPointerTargetProps", path := (.first [k!"SW-DATA-DEF-PROPS-VARIANTS", k!"SW-DATA-DEF-PROPS-CONDITIONAL"] (.first [k!"SW-POINTER-TARGET-PROPS"] .nil)), item := (.objs [(k!"SW-POINTER-TARGET-PROPS", k!"getSwPointerTargetProps_SwPointerTargetProps")]) },
   /- 3989 -/ { field := k!"swTextProps", path := (.first [k!"SW-DATA-DEF-PROPS-VARIANTS", k!"SW-DATA-DEF-PROPS-CONDITIONAL"] (.first [k!"SW-TEXT-PROPS"] .nil)), item := (.objs [(k!"SW-TEXT-PROPS", k!"getSwTextProps_SwTextProps")]) },
   /- 3990 -/ { field := k!"swRecordLayoutRef", path := (.first [k!"SW-DATA-DEF-PROPS-VARIANTS", k!"SW-DATA-DEF-PROPS-CONDITIONAL"] (.first [k!"SW-RECORD-LAYOUT-REF"] .nil)), item := (.prim .ref) },
   /- 3991 -/ { field := k!"valueAxisDataTypeRef", path := (.first [k!"SW-DATA-DEF-PROPS-VARIANTS", k!"SW-DATA-DEF-PROPS-CONDITIONAL"] (.first [k!"VALUE-AXIS-DATA-TYPE-REF"] .nil)), item := (.prim .ref) },
   /- 3992 -/ { field := k!"unitRef", path := (.first [k!"SW-DATA-DEF-PROPS-VARIANTS", k!"SW-DATA-DEF-PROPS-CONDITIONAL"] (.first [k!"UNIT-REF"] .nil)), item := (.prim .ref) },
   /- 3993 -/ { field := k!"displayFormat", path := (.first [k!"SW-DATA-DEF-PROPS-VARIANTS", k!"SW-DATA-DEF-PROPS-CONDITIONAL"] (.first [k!"DISPLAY-FORMAT"] .nil)), item := (.prim .lit) },
   /- 3994 -/ { field := k!"additionalNativeTypeQualifier", path := (.first [k!"SW-DATA-DEF-PROPS-VARIANTS", k!"SW-DATA-DEF-PROPS-CONDITIONAL"] (.first [k!"ADDITIONAL-NATIVE-TYPE-QUALIFIER"] .nil)), item := (.prim .lit) },
   /- 3995 -/ { field := k!"swInterpolationMethod", path := (.first [k!"SW-DATA-DEF-PROPS-VARIANTS", k!"SW-DATA-DEF-PROPS-CONDITIONAL"] (.first [k!"SW-INTERPOLATION-METHOD"] .nil)), item := (.prim .lit) },
   /- 3996 -/ { field := k!"swIsVirtual", path := (.first [k!"SW-DATA-DEF-PROPS-VARIANTS", k!"SW-DATA-DEF-PROPS-CONDITIONAL"] (.first [k!"SW-IS-VIRTUAL"] .nil)), item := (.prim .boolean) }] ++
  /- 3997 -/ via (.first [k!"SW-DATA-DEF-PROPS-VARIANTS", k!"SW-DATA-DEF-PROPS-CONDITIONAL"] .nil) readSwDataDefProsInvalidValue ++
  /- 3998 -/ via (.first [k!"SW-DATA-DEF-PROPS-VARIANTS", k!"SW-DATA-DEF-PROPS-CONDITIONAL"] .nil) readSwDataDefPropsBits ++
  /- 3999 -/ via (.first [k!"SW-DATA-DEF-PROPS-VARIANTS", k!"SW-DATA-DEF-PROPS-CONDITIONAL"] .nil) readSwComparisonVariables ++
  /- 4000 -/ via (.first [k!"SW-DATA-DEF-PROPS-VARIANTS", k!"SW-DATA-DEF-PROPS-CONDITIONAL"] .nil) readSwDataDependency ++
  /- 4001 -/ via (.first [k!"SW-DATA-DEF-PROPS-VARIANTS", k!"SW-DATA-DEF-PROPS-CONDITIONAL"] .nil) readSwHostVariable ++
  /- 4002 -/ via (.first [k!"SW-DATA-DEF-PROPS-VARIANTS", k!"SW-DATA-DEF-PROPS-CONDITIONAL"] .nil) readSwRefTiming ++
  [/- 3893 -/ { field := 0, path := (.first [k!"SW-DATA-DEF-PROPS-VARIANTS", k!"SW-DATA-DEF-PROPS-CONDITIONAL"] (.all k!"ANNOTATIONS" (.all 0 .nil))), item := (.guard [k!"ANNOTATION"] .unsupported) }]

/-- `getSwGenericAxisParam`, `parser/arxml_parser.py:3921-3927` (the `SwGenericAxisParam` it makes) -/
def getSwGenericAxisParam_SwGenericAxisParam : List RSlot :=
  [/- 3923 -/ { field := k!"timestamp", path := .nil, item := (.attr k!"T" .raw) },
   /- 3923 -/ { field := k!"uuid", path := .nil, item := (.attr k!"UUID" .raw) },
   /- 3924 -/ { field := k!"swGenericAxisParamTypeRef", path := (.first [k!"SW-GENERIC-AXIS-PARAM-TYPE-REF"] .nil), item := (.prim .ref) },
   /- 3926 -/ { field := k!"vfs", path := (.all k!"VF" .nil), item := (.prim .numericals) }]

/-- `getSwPointerTargetProps`, `parser/arxml_parser.py:3557-3565` (the `SwPointerTargetProps` it makes) -/
def getSwPointerTargetProps_SwPointerTargetProps : List RSlot :=
  [/- 3562 -/ { field := k!"targetCategory", path := (.first [k!"TARGET-CATEGORY"] .nil), item := (.prim .lit) },
   /- 3563 -/ { field := k!"swDataDefProps", path := (.first [k!"SW-DATA-DEF-PROPS"] .nil), item := (.objs [(k!"SW-DATA-DEF-PROPS", k!"getSwDataDefProps_SwDataDefProps")]) },
   /- 3564 -/ { field := k!"functionPointerSignatureRef", path := (.first [k!"FUNCTION-POINTER-SIGNATURE-REF"] .nil), item := (.prim .ref) }]

/-- `readSwRecordLayoutGroupSwRecordLayoutGroupContentType`, `parser/arxml_parser.py:5620-5624` (the `SwRecordLayoutGroupContent` it makes) -/
def readSwRecordLayoutGroupSwRecordLayoutGroupContentType_SwRecordLayoutGroupContent : List RSlot :=
  [/- 5622 -/ { field := k!"swRecordLayoutGroup", path := (.first [k!"SW-RECORD-LAYOUT-GROUP"] .nil), item := (.objs [(k!"SW-RECORD-LAYOUT-GROUP", k!"getSwRecordLayoutGroup_SwRecordLayoutGroup")]) },
   /- 5623 -/ { field := k!"swRecordLayoutV", path := (.first [k!"SW-RECORD-LAYOUT-V"] .nil), item := (.objs [(k!"SW-RECORD-LAYOUT-V", k!"getSwRecordLayoutV_SwRecordLayoutV")]) }]

/-- `readSwRecordLayoutGroupSwRecordLayoutGroupContentType`, `parser/arxml_parser.py:5620-5624` -/
def readSwRecordLayoutGroupSwRecordLayoutGroupContentType : List RSlot :=
  /- 5624 -/ part k!"swRecordLayoutGroupContentType" .nil readSwRecordLayoutGroupSwRecordLayoutGroupContentType_SwRecordLayoutGroupContent

/-- `getSwRecordLayoutGroup`, `parser/arxml_parser.py:5626-5640` (the `SwRecordLayoutGroup` it makes) -/
def getSwRecordLayoutGroup_SwRecordLayoutGroup : List RSlot :=
  [/- 5631 -/ { field := k!"shortLabel", path := (.first [k!"SHORT-LABEL"] .nil), item := (.prim .lit) },
   /- 5632 -/ { field := k!"category", path := (.first [k!"CATEGORY"] .nil), item := (.prim .lit) },
   /- 5633 -/ { field := k!"swRecordLayoutGroupAxis", path := (.first [k!"SW-RECORD-LAYOUT-GROUP-AXIS"] .nil), item := (.prim .lit) },
   /- 5634 -/ { field := k!"swRecordLayoutGroupIndex", path := (.first [k!"SW-RECORD-LAYOUT-GROUP-INDEX"] .nil), item := (.prim .lit) },
   /- 5635 -/ { field := k!"swRecordLayoutGroupFrom", path := (.first [k!"SW-RECORD-LAYOUT-GROUP-FROM"] .nil), item := (.prim .lit) },
   /- 5636 -/ { field := k!"swRecordLayoutGroupStep", path := (.first [k!"SW-RECORD-LAYOUT-GROUP-STEP"] .nil), item := (.prim .integer) },
   /- 5637 -/ { field := k!"swRecordLayoutGroupTo", path := (.first [k!"SW-RECORD-LAYOUT-GROUP-TO"] .nil), item := (.prim .lit) }] ++
  /- 5638 -/ readSwRecordLayoutGroupSwRecordLayoutGroupContentType

/-- `getSwRecordLayoutV`, `parser/arxml_parser.py:5608-5618` (the `SwRecordLayoutV` it makes) -/
def getSwRecordLayoutV_SwRecordLayoutV : List RSlot :=
  [/- 5613 -/ { field := k!"shortLabel", path := (.first [k!"SHORT-LABEL"] .nil), item := (.prim .lit) },
   /- 5614 -/ { field := k!"baseTypeRef", path := (.first [k!"BASE-TYPE-REF"] .nil), item := (.prim .ref) },
   /- 5615 -/ { field := k!"swRecordLayoutVAxis", path := (.first [k!"SW-RECORD-LAYOUT-V-AXIS"] .nil), item := (.prim .lit) },
   /- 5616 -/ { field := k!"swRecordLayoutVProp", path := (.first [k!"SW-RECORD-LAYOUT-V-PROP"] .nil), item := (.prim .lit) },
   /- 5617 -/ { field := k!"swRecordLayoutVIndex", path := (.first [k!"SW-RECORD-LAYOUT-V-INDEX"] .nil), item := (.prim .lit) }]

/-- `getSwTextProps`, `parser/arxml_parser.py:3576-3585` (the `SwTextProps` it makes) -/
def getSwTextProps_SwTextProps : List RSlot :=
  [/- 3581 -/ { field := k!"arraySizeSemantics", path := (.first [k!"ARRAY-SIZE-SEMANTICS"] .nil), item := (.prim .lit) },
   /- 3582 -/ { field := k!"baseTypeRef", path := (.first [k!"BASE-TYPE-REF"] .nil), item := (.prim .ref) },
   /- 3583 -/ { field := k!"swFillCharacter", path := (.first [k!"SW-FILL-CHARACTER"] .nil), item := (.prim .integer) },
   /- 3584 -/ { field := k!"swMaxTextSize", path := (.first [k!"SW-MAX-TEXT-SIZE"] .nil), item := (.prim .integer) }]

/-- `getSwValueCont`, `parser/arxml_parser.py:4227-4237` (the `SwValueCont` it makes) -/
def getSwValueCont_SwValueCont : List RSlot :=
  [/- 4233 -/ { field := k!"timestamp", path := .nil, item := (.attr k!"T" .raw) },
   /- 4233 -/ { field := k!"uuid", path := .nil, item := (.attr k!"UUID" .raw) },
   /- 4234 -/ { field := k!"unitRef", path := (.first [k!"UNIT-REF"] .nil), item := (.prim .ref) },
   /- 4235 -/ { field := k!"swArraysize", path := (.first [k!"SW-ARRAYSIZE"] .nil), item := (.objs [(k!"SW-ARRAYSIZE", k!"getValueList_ValueList")]) },
   /- 4236 -/ { field := k!"swValuesPhys", path := (.first [k!"SW-VALUES-PHYS"] .nil), item := (.objs [(k!"SW-VALUES-PHYS", k!"getSwValues_SwValues")]) }]

/-- `getSwValues`, `parser/arxml_parser.py:4206-4215` (the `SwValues` it makes) -/
def getSwValues_SwValues : List RSlot :=
  [/- 4211 -/ { field := k!"timestamp", path := .nil, item := (.attr k!"T" .raw) },
   /- 4211 -/ { field := k!"uuid", path := .nil, item := (.attr k!"UUID" .raw) },
   /- 4213 -/ { field := k!"_v", path := (.all k!"V" .nil), item := (.prim .floats) },
   /- 4214 -/ { field := k!"vt", path := (.first [k!"VT"] .nil), item := (.prim .lit) }]

/-- `getTargetIPduRef`, `parser/arxml_parser.py:8269-8275` (the `TargetIPduRef` it makes) -/
def getTargetIPduRef_TargetIPduRef : List RSlot :=
  [/- 8274 -/ { field := k!"targetIPdu", path := (.first [k!"TARGET-I-PDU-REF"] .nil), item := (.prim .ref) }]

/-- `getTextTableMapping`, `parser/arxml_parser.py:8956-8962` (the `TextTableMapping` it makes) -/
def getTextTableMapping_TextTableMapping : List RSlot :=
  [/- 8958 -/ { field := k!"bitfieldTextTableMaskFirst", path := (.first [k!"BITFIELD-TEXT-TABLE-MASK-FIRST"] .nil), item := (.prim .positive) },
   /- 8959 -/ { field := k!"bitfieldTextTableMaskSecond", path := (.first [k!"BITFIELD-TEXT-TABLE-MASK-SECOND"] .nil), item := (.prim .positive) },
   /- 8960 -/ { field := k!"identicalMapping", path := (.first [k!"IDENTICAL-MAPPING"] .nil), item := (.prim .boolean) },
   /- 8961 -/ { field := k!"mappingDirection", path := (.first [k!"MAPPING-DIRECTION"] .nil), item := (.prim .lit) }]

/-- `getTextValueSpecification`, `parser/arxml_parser.py:5350-5356` (the `TextValueSpecification` it makes) -/
def getTextValueSpecification_TextValueSpecification : List RSlot :=
  /- 5353 -/ readValueSpecification ++
  [/- 5354 -/ { field := k!"shortLabel", path := (.first [k!"SHORT-LABEL"] .nil), item := (.prim .lit) },
   /- 5355 -/ { field := k!"value", path := (.first [k!"VALUE"] .nil), item := (.prim .lit) }]

/-- `getTimeRangeType`, `parser/arxml_parser.py:8631-8637` (the `TimeRangeType` it makes) -/
def getTimeRangeType_TimeRangeType : List RSlot :=
  [/- 8636 -/ { field := k!"value", path := (.first [k!"VALUE"] .nil), item := (.prim .time) }]

/-- `getTpPort`, `parser/arxml_parser.py:6027-6034` (the `TpPort` it makes) -/
def getTpPort_TpPort : List RSlot :=
  [/- 6032 -/ { field := k!"dynamicallyAssigned", path := (.first [k!"DYNAMICALLY-ASSIGNED"] .nil), item := (.prim .boolean) },
   /- 6033 -/ { field := k!"portNumber", path := (.first [k!"PORT-NUMBER"] .nil), item := (.prim .positive) }]

/-- `getTraceableText`, `parser/arxml_parser.py:3690-3699` (the `TraceableText` it makes) -/
def getTraceableText_TraceableText : List RSlot :=
  [/- 3695 -/ { field := k!"timestamp", path := .nil, item := (.attr k!"T" .raw) },
   /- 3695 -/ { field := k!"uuid", path := .nil, item := (.attr k!"UUID" .raw) },
   /- 3696 -/ { field := k!"text", path := (.first [k!"TEXT"] .nil), item := (.objs [(k!"TEXT", k!"getDocumentationBlock_DocumentationBlock")]) },
   /- 3698 -/ { field := k!"traceRefs", path := (.all k!"TRACE-REFS" (.all k!"TRACE-REF" .nil)), item := (.prim .refDest) }]

/-- `getTransformationComSpecProps`, `parser/arxml_parser.py:4190-4204` (the `UserDefinedTransformationComSpecProps` it makes); also `readTransformationComSpecPropss` -/
def getTransformationComSpecProps_UserDefinedTransformationComSpecProps : List RSlot :=
  /- 4201 -/ readPaginateable

/-- `getTransmissionComSpecProps`, `parser/arxml_parser.py:4430-4439` (the `TransmissionComSpecProps` it makes) -/
def getTransmissionComSpecProps_TransmissionComSpecProps : List RSlot :=
  [/- 4434 -/ { field := k!"timestamp", path := .nil, item := (.attr k!"T" .raw) },
   /- 4434 -/ { field := k!"uuid", path := .nil, item := (.attr k!"UUID" .raw) },
   /- 4435 -/ { field := k!"dataUpdatePeriod", path := (.first [k!"DATA-UPDATE-PERIOD"] .nil), item := (.prim .time) },
   /- 4436 -/ { field := k!"minimumSendInterval", path := (.first [k!"MINIMUM-SEND-INTERVAL"] .nil), item := (.prim .time) },
   /- 4437 -/ { field := k!"transmissionMode", path := (.first [k!"TRANSMISSION-MODE"] .nil), item := (.prim .lit) }]

/-- `getTransmissionModeConditions`, `parser/arxml_parser.py:8621-8629` (the `TransmissionModeCondition` it makes) -/
def getTransmissionModeConditions_TransmissionModeCondition : List RSlot :=
  [/- 8626 -/ { field := k!"dataFilter", path := (.first [k!"DATA-FILTER"] .nil), item := (.objs [(k!"DATA-FILTER", k!"getDataFilter_DataFilter")]) },
   /- 8627 -/ { field := k!"iSignalInIPduRef", path := (.first [k!"I-SIGNAL-IN-I-PDU-REF"] .nil), item := (.prim .ref) }]

/-- `getTransmissionModeDeclaration`, `parser/arxml_parser.py:8667-8676` (the `TransmissionModeDeclaration` it makes) -/
def getTransmissionModeDeclaration_TransmissionModeDeclaration : List RSlot :=
  [/- 8673 -/ { field := k!"transmissionModeConditions", path := (.all k!"TRANSMISSION-MODE-CONDITIONS" (.all k!"TRANSMISSION-MODE-CONDITION" .nil)), item := (.objs [(k!"TRANSMISSION-MODE-CONDITION", k!"getTransmissionModeConditions_TransmissionModeCondition")]) },
   /- 8674 -/ { field := k!"transmissionModeFalseTiming", path := (.first [k!"TRANSMISSION-MODE-FALSE-TIMING"] .nil), item := (.objs [(k!"TRANSMISSION-MODE-FALSE-TIMING", k!"getTransmissionModeTiming_TransmissionModeTiming")]) },
   /- 8675 -/ { field := k!"transmissionModeTrueTiming", path := (.first [k!"TRANSMISSION-MODE-TRUE-TIMING"] .nil), item := (.objs [(k!"TRANSMISSION-MODE-TRUE-TIMING", k!"getTransmissionModeTiming_TransmissionModeTiming")]) }]

/-- `getTransmissionModeTiming`, `parser/arxml_parser.py:8657-8665` (the `TransmissionModeTiming` it makes) -/
def getTransmissionModeTiming_TransmissionModeTiming : List RSlot :=
  [/- 8663 -/ { field := k!"cyclicTiming", path := (.first [k!"CYCLIC-TIMING"] .nil), item := (.objs [(k!"CYCLIC-TIMING", k!"getCyclicTiming_CyclicTiming")]) },
   /- 8664 -/ { field := k!"eventControlledTiming", path := (.first [k!"EVENT-CONTROLLED-TIMING"] .nil), item := (.objs [(k!"EVENT-CONTROLLED-TIMING", k!"getEventControlledTiming_EventControlledTiming")]) }]

/-- `readGenericTp`, `parser/arxml_parser.py:6047-6049` -/
def readGenericTp : List RSlot :=
  [/- 6048 -/ { field := k!"tpAddress", path := (.first [k!"TP-ADDRESS"] .nil), item := (.prim .lit) },
   /- 6049 -/ { field := k!"tpTechnology", path := (.first [k!"TP-TECHNOLOGY"] .nil), item := (.prim .lit) }]

/-- `getTransportProtocolConfiguration`, `parser/arxml_parser.py:6051-6067` (the `GenericTp` it makes) -/
def getTransportProtocolConfiguration_GenericTp : List RSlot :=
  /- 6064 -/ readGenericTp

/-- `readTcpTp`, `parser/arxml_parser.py:6039-6045` -/
def readTcpTp : List RSlot :=
  [/- 6040 -/ { field := k!"keepAliveInterval", path := (.first [k!"KEEP-ALIVE-INTERVAL"] .nil), item := (.prim .time) },
   /- 6041 -/ { field := k!"keepAliveProbesMax", path := (.first [k!"KEEP-ALIVE-PROBES-MAX"] .nil), item := (.prim .positive) },
   /- 6042 -/ { field := k!"keepAliveTime", path := (.first [k!"KEEP-ALIVE-TIME"] .nil), item := (.prim .time) },
   /- 6043 -/ { field := k!"keepAlives", path := (.first [k!"KEEP-ALIVES"] .nil), item := (.prim .boolean) },
   /- 6044 -/ { field := k!"naglesAlgorithm", path := (.first [k!"NAGLES-ALGORITHM"] .nil), item := (.prim .lit) },
   /- 6045 -/ { field := k!"tcpTpPort", path := (.first [k!"TCP-TP-PORT"] .nil), item := (.objs [(k!"TCP-TP-PORT", k!"getTpPort_TpPort")]) }]

/-- `getTransportProtocolConfiguration`, `parser/arxml_parser.py:6051-6067` (the `TcpTp` it makes) -/
def getTransportProtocolConfiguration_TcpTp : List RSlot :=
  /- 6061 -/ readTcpTp

/-- `readUdpTp`, `parser/arxml_parser.py:6036-6037` -/
def readUdpTp : List RSlot :=
  [/- 6037 -/ { field := k!"udpTpPort", path := (.first [k!"UDP-TP-PORT"] .nil), item := (.objs [(k!"UDP-TP-PORT", k!"getTpPort_TpPort")]) }]

/-- `getTransportProtocolConfiguration`, `parser/arxml_parser.py:6051-6067` (the `UdpTp` it makes) -/
def getTransportProtocolConfiguration_UdpTp : List RSlot :=
  /- 6058 -/ readUdpTp

/-- `getUdpNmClusterCoupling`, `parser/arxml_parser.py:6840-6845` (the `UdpNmClusterCoupling` it makes) -/
def getUdpNmClusterCoupling_UdpNmClusterCoupling : List RSlot :=
  [/- 6843 -/ { field := k!"coupledClusterRefs", path := (.all k!"COUPLED-CLUSTER-REFS" (.all k!"COUPLED-CLUSTER-REF" .nil)), item := (.prim .ref) },
   /- 6844 -/ { field := k!"nmImmediateRestartEnabled", path := (.first [k!"NM-IMMEDIATE-RESTART-ENABLED"] .nil), item := (.prim .boolean) }]

/-- `getValueList`, `parser/arxml_parser.py:4217-4225` (the `ValueList` it makes) -/
def getValueList_ValueList : List RSlot :=
  [/- 4223 -/ { field := k!"timestamp", path := .nil, item := (.attr k!"T" .raw) },
   /- 4223 -/ { field := k!"uuid", path := .nil, item := (.attr k!"UUID" .raw) },
   /- 4224 -/ { field := k!"v", path := (.first [k!"V"] .nil), item := (.prim .float) }]

/-- `getVariableDataPrototypeInSystemInstanceRef`, `parser/arxml_parser.py:5496-5505` (the `VariableDataPrototypeInSystemInstanceRef` it makes) -/
def getVariableDataPrototypeInSystemInstanceRef_VariableDataPrototypeInSystemInstanceRef : List RSlot :=
  [/- 5501 -/ { field := k!"contextComponentRefs", path := (.all k!"CONTEXT-COMPONENT-REF" .nil), item := (.prim .ref) },
   /- 5502 -/ { field := k!"contextCompositionRef", path := (.first [k!"CONTEXT-COMPOSITION-REF"] .nil), item := (.prim .ref) },
   /- 5503 -/ { field := k!"contextPortRef", path := (.first [k!"CONTEXT-PORT-REF"] .nil), item := (.prim .ref) },
   /- 5504 -/ { field := k!"targetDataPrototypeRef", path := (.first [k!"TARGET-DATA-PROTOTYPE-REF"] .nil), item := (.prim .ref) }]

/-- `getVariableInAtomicSWCTypeInstanceRef`, `parser/arxml_parser.py:1037-1044` (the `VariableInAtomicSWCTypeInstanceRef` it makes) -/
def getVariableInAtomicSWCTypeInstanceRef_VariableInAtomicSWCTypeInstanceRef : List RSlot :=
  [/- 1041 -/ { field := k!"timestamp", path := .nil, item := (.attr k!"T" .raw) },
   /- 1041 -/ { field := k!"uuid", path := .nil, item := (.attr k!"UUID" .raw) },
   /- 1042 -/ { field := k!"portPrototypeRef", path := (.first [k!"PORT-PROTOTYPE-REF"] .nil), item := (.prim .ref) },
   /- 1043 -/ { field := k!"targetDataPrototypeRef", path := (.first [k!"TARGET-DATA-PROTOTYPE-REF"] .nil), item := (.prim .ref) }]

/-- `readTrigger`, `parser/arxml_parser.py:2337-2338`; also 5 other methods -/
def readTrigger : List RSlot :=
  /- 2338 -/ readIdentifiable

/-- `readMultilanguageReferrable`, `parser/arxml_parser.py:920-922` -/
def readMultilanguageReferrable_ARPackage : List RSlot :=
  /- 921 -/ readPPortComSpec ++
  [/- 922 -/ { field := k!"longName", path := (.first [k!"LONG-NAME"] .nil), item := (.objs [(k!"LONG-NAME", k!"getMultilanguageLongName_MultilanguageLongName")]) }]

/-- `readIdentifiable`, `parser/arxml_parser.py:933-948` -/
def readIdentifiable_ARPackage : List RSlot :=
  /- 934 -/ readMultilanguageReferrable_ARPackage ++
  [/- 3893 -/ { field := 0, path := (.all k!"ANNOTATIONS" (.all 0 .nil)), item := (.guard [k!"ANNOTATION"] .unsupported) },
   /- 937 -/ { field := k!"annotations", path := (.all k!"ANNOTATIONS" (.all k!"ANNOTATION" .nil)), item := (.objs [(k!"ANNOTATION", k!"getAnnotations_Annotation")]) },
   /- 939 -/ { field := k!"category", path := (.first [k!"CATEGORY"] .nil), item := (.prim .lit) },
   /- 940 -/ { field := k!"desc", path := (.first [k!"DESC"] .nil), item := (.objs [(k!"DESC", k!"getMultiLanguageOverviewParagraph_MultiLanguageOverviewParagraph")]) },
   /- 941 -/ { field := k!"introduction", path := (.first [k!"INTRODUCTION"] .nil), item := (.objs [(k!"INTRODUCTION", k!"getDocumentationBlock_DocumentationBlock")]) },
   /- 943 -/ { field := k!"adminData", path := (.first [k!"ADMIN-DATA"] .nil), item := (.objs [(k!"ADMIN-DATA", k!"getAdminData_AdminData")]) }]

/-- `readARPackages`, `parser/arxml_parser.py:9403-9410` -/
def readARPackages : List RSlot :=
  [/- 9407 -/ { field := k!"arPackages", path := (.all k!"AR-PACKAGES" (.all k!"AR-PACKAGE" .nil)), item := (.objs [(k!"AR-PACKAGE", k!"readARPackages_ARPackage")]), named := true },
   /- 9410 -/ { field := 0, path := (.all k!"AR-PACKAGES" (.all 0 .nil)), item := (.guard [k!"AR-PACKAGE"] .unsupported) }]

/-- `readARPackageElements`, `parser/arxml_parser.py:9023-9318` -/
def readARPackageElements : List RSlot :=
  [/- 9027 -/ { field := k!"elements", path := (.all k!"ELEMENTS" (.all 0 .nil)), item := (.objs [(k!"COMPOSITION-SW-COMPONENT-TYPE", k!"readARPackageElements_CompositionSwComponentType"), (k!"DATA-PROTOTYPE-GROUP", k!"readARPackageElements_DataPrototypeGroup"), (k!"RUNNABLE-ENTITY-GROUP", k!"readARPackageElements_RunnableEntityGroup"), (k!"CONSISTENCY-NEEDS", k!"readARPackageElements_ConsistencyNeeds"), (k!"COMPLEX-DEVICE-DRIVER-SW-COMPONENT-TYPE", k!"readARPackageElements_ComplexDeviceDriverSwComponentType"), (k!"SWC-IMPLEMENTATION", k!"readARPackageElements_SwcImplementation"), (k!"APPLICATION-PRIMITIVE-DATA-TYPE", k!"readARPackageElements_ApplicationPrimitiveDataType"), (k!"APPLICATION-RECORD-DATA-TYPE", k!"readARPackageElements_ApplicationRecordDataType"), (k!"SW-BASE-TYPE", k!"readARPackageElements_SwBaseType"), (k!"COMPU-METHOD", k!"readARPackageElements_CompuMethod"), (k!"CONSTANT-SPECIFICATION", k!"readARPackageElements_ConstantSpecification"), (k!"DATA-CONSTR", k!"readARPackageElements_DataConstr"), (k!"END-TO-END-PROTECTION-SET", k!"readARPackageElements_EndToEndProtectionSet"), (k!"SENDER-RECEIVER-INTERFACE", k!"readARPackageElements_SenderReceiverInterface"), (k!"UNIT", k!"readARPackageElements_Unit"), (k!"BSW-MODULE-DESCRIPTION", k!"readARPackageElements_BswModuleDescription"), (k!"BSW-MODULE-ENTRY", k!"readARPackageElements_BswModuleEntry"), (k!"SWC-BSW-MAPPING", k!"readARPackageElements_SwcBswMapping"), (k!"BSW-IMPLEMENTATION", k!"readARPackageElements_BswImplementation"), (k!"IMPLEMENTATION-DATA-TYPE", k!"readARPackageElements_ImplementationDataType"), (k!"CLIENT-SERVER-INTERFACE", k!"readARPackageElements_ClientServerInterface"), (k!"APPLICATION-SW-COMPONENT-TYPE", k!"readARPackageElements_ApplicationSwComponentType"), (k!"ECU-ABSTRACTION-SW-COMPONENT-TYPE", k!"readARPackageElements_EcuAbstractionSwComponentType"), (k!"APPLICATION-ARRAY-DATA-TYPE", k!"readARPackageElements_ApplicationArrayDataType"), (k!"SW-RECORD-LAYOUT", k!"readARPackageElements_SwRecordLayout"), (k!"SW-ADDR-METHOD", k!"readARPackageElements_SwAddrMethod"), (k!"TRIGGER-INTERFACE", k!"readARPackageElements_TriggerInterface"), (k!"SERVICE-SW-COMPONENT-TYPE", k!"readARPackageElements_ServiceSwComponentType"), (k!"SENSOR-ACTUATOR-SW-COMPONENT-TYPE", k!"readARPackageElements_SensorActuatorSwComponentType"), (k!"NV-BLOCK-SW-COMPONENT-TYPE", k!"readARPackageElements_NvBlockSwComponentType"), (k!"SERVICE-PROXY-SW-COMPONENT-TYPE", k!"readARPackageElements_ServiceProxySwComponentType"), (k!"DATA-TYPE-MAPPING-SET", k!"readARPackageElements_DataTypeMappingSet"), (k!"MODE-DECLARATION-GROUP", k!"readARPackageElements_ModeDeclarationGroup"), (k!"MODE-SWITCH-INTERFACE", k!"readARPackageElements_ModeSwitchInterface"), (k!"SWC-TIMING", k!"readARPackageElements_SwcTiming"), (k!"LIN-CLUSTER", k!"readARPackageElements_LinCluster"), (k!"LIN-UNCONDITIONAL-FRAME", k!"readARPackageElements_LinUnconditionalFrame"), (k!"NM-PDU", k!"readARPackageElements_NmPdu"), (k!"N-PDU", k!"readARPackageElements_NPdu"), (k!"DCM-I-PDU", k!"readARPackageElements_DcmIPdu"), (k!"SECURED-I-PDU", k!"readARPackageElements_SecuredIPdu"), (k!"NM-CONFIG", k!"readARPackageElements_NmConfig"), (k!"CAN-TP-CONFIG", k!"readARPackageElements_CanTpConfig"), (k!"LIN-TP-CONFIG", k!"readARPackageElements_LinTpConfig"), (k!"SYSTEM", k!"readARPackageElements_System"), (k!"ECU-INSTANCE", k!"readARPackageElements_EcuInstance"), (k!"GATEWAY", k!"readARPackageElements_Gateway"), (k!"I-SIGNAL-I-PDU-GROUP", k!"readARPackageElements_ISignalIPduGroup"), (k!"CAN-CLUSTER", k!"readARPackageElements_CanCluster"), (k!"CAN-FRAME", k!"readARPackageElements_CanFrame"), (k!"I-SIGNAL", k!"readARPackageElements_ISignal"), (k!"I-SIGNAL-GROUP", k!"readARPackageElements_ISignalGroup"), (k!"I-SIGNAL-I-PDU", k!"readARPackageElements_ISignalIPdu"), (k!"SYSTEM-SIGNAL", k!"readARPackageElements_SystemSignal"), (k!"SYSTEM-SIGNAL-GROUP", k!"readARPackageElements_SystemSignalGroup"), (k!"SIGNAL-SERVICE-TRANSLATION-PROPS-SET", k!"readARPackageElements_SignalServiceTranslationPropsSet"), (k!"ECUC-VALUE-COLLECTION", k!"readARPackageElements_EcucValueCollection"), (k!"ECUC-MODULE-CONFIGURATION-VALUES", k!"readARPackageElements_EcucModuleConfigurationValues"), (k!"PHYSICAL-DIMENSION", k!"readARPackageElements_PhysicalDimension"), (k!"PARAMETER-INTERFACE", k!"readARPackageElements_ParameterInterface"), (k!"ETHERNET-FRAME", k!"readARPackageElements_GenericEthernetFrame"), (k!"LIFE-CYCLE-INFO-SET", k!"readARPackageElements_LifeCycleInfoSet"), (k!"FLAT-MAP", k!"readARPackageElements_FlatMap"), (k!"PORT-INTERFACE-MAPPING-SET", k!"readARPackageElements_PortInterfaceMappingSet"), (k!"ETHERNET-CLUSTER", k!"readARPackageElements_EthernetCluster"), (k!"DIAGNOSTIC-CONNECTION", k!"readARPackageElements_DiagnosticConnection"), (k!"DIAGNOSTIC-SERVICE-TABLE", k!"readARPackageElements_DiagnosticServiceTable"), (k!"DOCUMENTATION", k!"readARPackageElements_Documentation"), (k!"MULTIPLEXED-I-PDU", k!"readARPackageElements_MultiplexedIPdu"), (k!"USER-DEFINED-I-PDU", k!"readARPackageElements_UserDefinedIPdu"), (k!"USER-DEFINED-PDU", k!"readARPackageElements_UserDefinedPdu"), (k!"GENERAL-PURPOSE-PDU", k!"readARPackageElements_GeneralPurposePdu"), (k!"GENERAL-PURPOSE-I-PDU", k!"readARPackageElements_GeneralPurposeIPdu"), (k!"SECURE-COMMUNICATION-PROPS-SET", k!"readARPackageElements_SecureCommunicationPropsSet"), (k!"SO-AD-ROUTING-GROUP", k!"readARPackageElements_SoAdRoutingGroup"), (k!"DO-IP-TP-CONFIG", k!"readARPackageElements_DoIpTpConfig"), (k!"HW-ELEMENT", k!"readARPackageElements_HwElement"), (k!"HW-CATEGORY", k!"readARPackageElements_HwCategory"), (k!"HW-TYPE", k!"readARPackageElements_HwType"), (k!"FLEXRAY-FRAME", k!"readARPackageElements_FlexrayFrame"), (k!"FLEXRAY-CLUSTER", k!"readARPackageElements_FlexrayCluster"), (k!"DATA-TRANSFORMATION-SET", k!"readARPackageElements_DataTransformationSet"), (k!"E-2-E-PROFILE-COMPATIBILITY-PROPS", k!"readARPackageElements_E2EProfileCompatibilityProps"), (k!"COLLECTION", k!"readARPackageElements_Collection"), (k!"KEYWORD-SET", k!"readARPackageElements_KeywordSet"), (k!"PORT-PROTOTYPE-BLUEPRINT", k!"readARPackageElements_PortPrototypeBlueprint"), (k!"MODE-DECLARATION-MAPPING-SET", k!"readARPackageElements_ModeDeclarationMappingSet"), (k!"ECUC-MODULE-DEF", k!"readARPackageElements_EcucModuleDef"), (k!"ECUC-DEFINITION-COLLECTION", k!"readARPackageElements_EcucDefinitionCollection"), (k!"ECUC-DESTINATION-URI-DEF-SET", k!"readARPackageElements_EcucDestinationUriDefSet"), (k!"SW-SYSTEMCONST", k!"readARPackageElements_SwSystemconst"), (k!"SW-SYSTEMCONSTANT-VALUE-SET", k!"readARPackageElements_SwSystemconstantValueSet"), (k!"PREDEFINED-VARIANT", k!"readARPackageElements_PredefinedVariant"), (k!"POST-BUILD-VARIANT-CRITERION", k!"readARPackageElements_PostBuildVariantCriterion"), (k!"NV-DATA-INTERFACE", k!"readARPackageElements_NvDataInterface"), (k!"MC-FUNCTION", k!"readARPackageElements_McFunction"), (k!"MC-GROUP", k!"readARPackageElements_McGroup")]), elems := true, named := true },
   /- 9318 -/ { field := 0, path := (.all k!"ELEMENTS" (.all 0 .nil)), item := (.guard [k!"COMPOSITION-SW-COMPONENT-TYPE", k!"DATA-PROTOTYPE-GROUP", k!"RUNNABLE-ENTITY-GROUP", k!"CONSISTENCY-NEEDS", k!"COMPLEX-DEVICE-DRIVER-SW-COMPONENT-TYPE", k!"SWC-IMPLEMENTATION", k!"APPLICATION-PRIMITIVE-DATA-TYPE", k!"APPLICATION-RECORD-DATA-TYPE", k!"SW-BASE-TYPE", k!"COMPU-METHOD", k!"CONSTANT-SPECIFICATION", k!"DATA-CONSTR", k!"END-TO-END-PROTECTION-SET", k!"SENDER-RECEIVER-INTERFACE", k!"UNIT", k!"BSW-MODULE-DESCRIPTION", k!"BSW-MODULE-ENTRY", k!"SWC-BSW-MAPPING", k!"BSW-IMPLEMENTATION", k!"IMPLEMENTATION-DATA-TYPE", k!"CLIENT-SERVER-INTERFACE", k!"APPLICATION-SW-COMPONENT-TYPE", k!"ECU-ABSTRACTION-SW-COMPONENT-TYPE", k!"APPLICATION-ARRAY-DATA-TYPE", k!"SW-RECORD-LAYOUT", k!"SW-ADDR-METHOD", k!"TRIGGER-INTERFACE", k!"SERVICE-SW-COMPONENT-TYPE", k!"SENSOR-ACTUATOR-SW-COMPONENT-TYPE", k!"NV-BLOCK-SW-COMPONENT-TYPE", k!"SERVICE-PROXY-SW-COMPONENT-TYPE", k!"DATA-TYPE-MAPPING-SET", k!"MODE-DECLARATION-GROUP", k!"MODE-SWITCH-INTERFACE", k!"SWC-TIMING", k!"LIN-CLUSTER", k!"LIN-UNCONDITIONAL-FRAME", k!"NM-PDU", k!"N-PDU", k!"DCM-I-PDU", k!"SECURED-I-PDU", k!"NM-CONFIG", k!"CAN-TP-CONFIG", k!"LIN-TP-CONFIG", k!"SYSTEM", k!"ECU-INSTANCE", k!"GATEWAY", k!"I-SIGNAL-I-PDU-GROUP", k!"CAN-CLUSTER", k!"CAN-FRAME", k!"I-SIGNAL", k!"I-SIGNAL-GROUP", k!"I-SIGNAL-I-PDU", k!"SYSTEM-SIGNAL", k!"SYSTEM-SIGNAL-GROUP", k!"SIGNAL-SERVICE-TRANSLATION-PROPS-SET", k!"ECUC-VALUE-COLLECTION", k!"ECUC-MODULE-CONFIGURATION-VALUES", k!"PHYSICAL-DIMENSION", k!"PARAMETER-INTERFACE", k!"ETHERNET-FRAME", k!"LIFE-CYCLE-INFO-SET", k!"FLAT-MAP", k!"PORT-INTERFACE-MAPPING-SET", k!"ETHERNET-CLUSTER", k!"DIAGNOSTIC-CONNECTION", k!"DIAGNOSTIC-SERVICE-TABLE", k!"DOCUMENTATION", k!"MULTIPLEXED-I-PDU", k!"USER-DEFINED-I-PDU", k!"USER-DEFINED-PDU", k!"GENERAL-PURPOSE-PDU", k!"GENERAL-PURPOSE-I-PDU", k!"SECURE-COMMUNICATION-PROPS-SET", k!"SO-AD-ROUTING-GROUP", k!"DO-IP-TP-CONFIG", k!"HW-ELEMENT", k!"HW-CATEGORY", k!"HW-TYPE", k!"FLEXRAY-FRAME", k!"FLEXRAY-CLUSTER", k!"DATA-TRANSFORMATION-SET", k!"E-2-E-PROFILE-COMPATIBILITY-PROPS", k!"COLLECTION", k!"KEYWORD-SET", k!"PORT-PROTOTYPE-BLUEPRINT", k!"MODE-DECLARATION-MAPPING-SET", k!"ECUC-MODULE-DEF", k!"ECUC-DEFINITION-COLLECTION", k!"ECUC-DESTINATION-URI-DEF-SET", k!"SW-SYSTEMCONST", k!"SW-SYSTEMCONSTANT-VALUE-SET", k!"PREDEFINED-VARIANT", k!"POST-BUILD-VARIANT-CRITERION", k!"NV-DATA-INTERFACE", k!"MC-FUNCTION", k!"MC-GROUP"] .unsupported) }]

/-- `readReferenceBases`, `parser/arxml_parser.py:9385-9393` -/
def readReferenceBases : List RSlot :=
  [/- 9393 -/ { field := k!"referenceBases", path := (.all k!"REFERENCE-BASES" (.all k!"REFERENCE-BASE" .nil)), item := (.objs [(k!"REFERENCE-BASE", k!"readReferenceBases_ReferenceBase")]) }]

/-- `readARPackage`, `parser/arxml_parser.py:9395-9401` -/
def readARPackage : List RSlot :=
  /- 9398 -/ readIdentifiable_ARPackage ++
  /- 9399 -/ readARPackages ++
  /- 9400 -/ readARPackageElements ++
  /- 9401 -/ readReferenceBases

/-- `readSwSystemconst`, `parser/arxml_parser.py:7818-7821`; also `readAutosarDataType` -/
def readSwSystemconst : List RSlot :=
  /- 7820 -/ readIdentifiable ++
  [/- 7821 -/ { field := k!"swDataDefProps", path := (.first [k!"SW-DATA-DEF-PROPS"] .nil), item := (.objs [(k!"SW-DATA-DEF-PROPS", k!"getSwDataDefProps_SwDataDefProps")]) }]

/-- `readApplicationDataType`, `parser/arxml_parser.py:5576-5577`; also `readApplicationPrimitiveDataType` -/
def readApplicationDataType : List RSlot :=
  /- 5577 -/ readSwSystemconst

/-- `readApplicationCompositeDataType`, `parser/arxml_parser.py:5579-5580` -/
def readApplicationCompositeDataType : List RSlot :=
  /- 5580 -/ readApplicationDataType

/-- `readApplicationArrayElement`, `parser/arxml_parser.py:5590-5600` -/
def readApplicationArrayElement : List RSlot :=
  [/- 5595 -/ { field := k!"element", path := (.first [k!"ELEMENT"] .nil), item := (.objs [(k!"ELEMENT", k!"readApplicationArrayElement_ApplicationArrayElement")]), elems := true, named := true }]

/-- `readApplicationArrayDataType`, `parser/arxml_parser.py:5602-5606` -/
def readApplicationArrayDataType : List RSlot :=
  /- 5604 -/ readApplicationCompositeDataType ++
  [/- 5605 -/ { field := k!"dynamicArraySizeProfile", path := (.first [k!"DYNAMIC-ARRAY-SIZE-PROFILE"] .nil), item := (.prim .lit) }] ++
  /- 5606 -/ readApplicationArrayElement

/-- `readARPackageElements`, `parser/arxml_parser.py:9023-9318` (the `ApplicationArrayDataType` it makes) -/
def readARPackageElements_ApplicationArrayDataType : List RSlot :=
  [/- 9096 -/ { field := k!"short_name", path := (.first [k!"SHORT-NAME"] .nil), item := .name, req := .always }] ++
  /- 9097 -/ readApplicationArrayDataType

/-- `readARPackageElements`, `parser/arxml_parser.py:9023-9318` (the `ApplicationPrimitiveDataType` it makes) -/
def readARPackageElements_ApplicationPrimitiveDataType : List RSlot :=
  [/- 9045 -/ { field := k!"short_name", path := (.first [k!"SHORT-NAME"] .nil), item := .name, req := .always }] ++
  /- 9046 -/ readApplicationDataType

/-- `readApplicationRecordDataTypeElements`, `parser/arxml_parser.py:4084-4091` -/
def readApplicationRecordDataTypeElements : List RSlot :=
  [/- 4088 -/ { field := k!"record_elements", path := (.all k!"ELEMENTS" (.all k!"APPLICATION-RECORD-ELEMENT" .nil)), item := (.objs [(k!"APPLICATION-RECORD-ELEMENT", k!"readApplicationRecordDataTypeElements_ApplicationRecordElement")]), elems := true, named := true },
   /- 4091 -/ { field := 0, path := (.all k!"ELEMENTS" (.all 0 .nil)), item := (.guard [k!"APPLICATION-RECORD-ELEMENT"] .unsupported) }]

/-- `readApplicationRecordDataType`, `parser/arxml_parser.py:4093-4097` -/
def readApplicationRecordDataType : List RSlot :=
  /- 4095 -/ readIdentifiable ++
  [/- 4096 -/ { field := k!"swDataDefProps", path := (.first [k!"SW-DATA-DEF-PROPS"] .nil), item := (.objs [(k!"SW-DATA-DEF-PROPS", k!"getSwDataDefProps_SwDataDefProps")]) }] ++
  /- 4097 -/ readApplicationRecordDataTypeElements

/-- `readARPackageElements`, `parser/arxml_parser.py:9023-9318` (the `ApplicationRecordDataType` it makes) -/
def readARPackageElements_ApplicationRecordDataType : List RSlot :=
  [/- 9048 -/ { field := k!"short_name", path := (.first [k!"SHORT-NAME"] .nil), item := .name, req := .always }] ++
  /- 9049 -/ readApplicationRecordDataType

/-- `readSwComponentTypeSwComponentDocumentation`, `parser/arxml_parser.py:4622-4626` -/
def readSwComponentTypeSwComponentDocumentation : List RSlot :=
  [/- 4626 -/ { field := k!"swComponentDocumentation", path := (.first [k!"SW-COMPONENT-DOCUMENTATION"] .nil), item := (.objs [(k!"SW-COMPONENT-DOCUMENTATION", k!"readSwComponentDocumentationElement_SwComponentDocumentation")]) }]

/-- `readSwComponentTypeConsistencyNeeds`, `parser/arxml_parser.py:4597-4599` -/
def readSwComponentTypeConsistencyNeeds : List RSlot :=
  [/- 4599 -/ { field := k!"consistencyNeeds", path := (.all k!"CONSISTENCY-NEEDSS" (.all k!"CONSISTENCY-NEEDS" .nil)), item := (.objs [(k!"CONSISTENCY-NEEDS", k!"readARPackageElements_ConsistencyNeeds")]), elems := true, named := true }]

/-- `readSwComponentTypePorts`, `parser/arxml_parser.py:4406-4419` -/
def readSwComponentTypePorts : List RSlot :=
  [/- 4410 -/ { field := k!"ports", path := (.all k!"PORTS" (.all 0 .nil)), item := (.objs [(k!"P-PORT-PROTOTYPE", k!"readSwComponentTypePorts_PPortPrototype"), (k!"R-PORT-PROTOTYPE", k!"readSwComponentTypePorts_RPortPrototype"), (k!"PR-PORT-PROTOTYPE", k!"readSwComponentTypePorts_PRPortPrototype")]), elems := true, named := true },
   /- 4419 -/ { field := 0, path := (.all k!"PORTS" (.all 0 .nil)), item := (.guard [k!"P-PORT-PROTOTYPE", k!"R-PORT-PROTOTYPE", k!"PR-PORT-PROTOTYPE"] .unsupported) }]

/-- `readPortGroup`, `parser/arxml_parser.py:4573-4579` -/
def readPortGroup : List RSlot :=
  [/- 4576 -/ { field := k!"portGroups", path := .nil, item := (.objs [(k!"PORT-GROUP", k!"readPortGroup_PortGroup")]), elems := true, named := true }]

/-- `readSwComponentTypePortGroups`, `parser/arxml_parser.py:4581-4587` -/
def readSwComponentTypePortGroups : List RSlot :=
  /- 4585 -/ via (.all k!"PORT-GROUPS" (.all k!"PORT-GROUP" .nil)) readPortGroup ++
  [/- 4587 -/ { field := 0, path := (.all k!"PORT-GROUPS" (.all 0 .nil)), item := (.guard [k!"PORT-GROUP"] .invalid) }]

/-- `readSwComponentTypeSwcMappingConstraints`, `parser/arxml_parser.py:4589-4591` -/
def readSwComponentTypeSwcMappingConstraints : List RSlot :=
  [/- 4591 -/ { field := k!"swcMappingConstraintsRefs", path := (.all k!"SWC-MAPPING-CONSTRAINT-REFS" (.all k!"SWC-MAPPING-CONSTRAINT-REF" .nil)), item := (.prim .ref) }]

/-- `readSwComponentTypeUnitGroups`, `parser/arxml_parser.py:4593-4595` -/
def readSwComponentTypeUnitGroups : List RSlot :=
  [/- 4595 -/ { field := k!"unitGroupRefs", path := (.all k!"UNIT-GROUP-REFS" (.all k!"UNIT-GROUP-REF" .nil)), item := (.prim .ref) }]

/-- `readSwComponentType`, `parser/arxml_parser.py:4747-4754` -/
def readSwComponentType : List RSlot :=
  /- 4748 -/ readIdentifiable ++
  /- 4749 -/ readSwComponentTypeSwComponentDocumentation ++
  /- 4750 -/ readSwComponentTypeConsistencyNeeds ++
  /- 4751 -/ readSwComponentTypePorts ++
  /- 4752 -/ readSwComponentTypePortGroups ++
  /- 4753 -/ readSwComponentTypeSwcMappingConstraints ++
  /- 4754 -/ readSwComponentTypeUnitGroups

/-- `readAtomicSwComponentTypeSwcInternalBehavior`, `parser/arxml_parser.py:2111-2118` -/
def readAtomicSwComponentTypeSwcInternalBehavior : List RSlot :=
  [/- 2115 -/ { field := k!"internalBehavior", path := (.all k!"INTERNAL-BEHAVIORS" (.all k!"SWC-INTERNAL-BEHAVIOR" .nil)), item := (.objs [(k!"SWC-INTERNAL-BEHAVIOR", k!"readAtomicSwComponentTypeSwcInternalBehavior_SwcInternalBehavior")]), elems := true, named := true, one := true },
   /- 2118 -/ { field := 0, path := (.all k!"INTERNAL-BEHAVIORS" (.all 0 .nil)), item := (.guard [k!"SWC-INTERNAL-BEHAVIOR"] .unsupported) }]

/-- `readAtomicSwComponentTypeSymbolProps`, `parser/arxml_parser.py:4756-4760` -/
def readAtomicSwComponentTypeSymbolProps : List RSlot :=
  [/- 4759 -/ { field := k!"symbolProps", path := (.first [k!"SYMBOL-PROPS"] .nil), item := (.objs [(k!"SYMBOL-PROPS", k!"readAtomicSwComponentTypeSymbolProps_SymbolProps")]), elems := true, named := true }]

/-- `readAtomicSwComponentType`, `parser/arxml_parser.py:4762-4765` -/
def readAtomicSwComponentType : List RSlot :=
  /- 4763 -/ readSwComponentType ++
  /- 4764 -/ readAtomicSwComponentTypeSwcInternalBehavior ++
  /- 4765 -/ readAtomicSwComponentTypeSymbolProps

/-- `readServiceSwComponentType`, `parser/arxml_parser.py:4791-4793`; also `readApplicationSwComponentType`, `readServiceProxySwComponentType` -/
def readServiceSwComponentType : List RSlot :=
  /- 4793 -/ readAtomicSwComponentType

/-- `readARPackageElements`, `parser/arxml_parser.py:9023-9318` (the `ServiceSwComponentType` it makes) -/
def readARPackageElements_ServiceSwComponentType : List RSlot :=
  [/- 9108 -/ { field := k!"short_name", path := (.first [k!"SHORT-NAME"] .nil), item := .name, req := .always }] ++
  /- 9109 -/ readServiceSwComponentType

/-- `readCodeDescriptor`, `parser/arxml_parser.py:2502-2509` -/
def readCodeDescriptor : List RSlot :=
  [/- 2506 -/ { field := k!"codeDescriptors", path := (.all k!"CODE-DESCRIPTORS" (.all k!"CODE" .nil)), item := (.objs [(k!"CODE", k!"readCodeDescriptor_Code")]), elems := true, named := true, fresh := true }]

/-- `readResourceConsumption`, `parser/arxml_parser.py:2788-2798` -/
def readResourceConsumption : List RSlot :=
  [/- 2791 -/ { field := k!"resourceConsumption", path := (.first [k!"RESOURCE-CONSUMPTION"] .nil), item := (.objs [(k!"RESOURCE-CONSUMPTION", k!"readResourceConsumption_ResourceConsumption")]), elems := true, named := true, fresh := true }]

/-- `readBuildActionManifests`, `parser/arxml_parser.py:3004-3009`; also `readMcDataInstance`, `readMsrQueryP1` -/
def readBuildActionManifests : List RSlot :=
  []

/-- `readCompiler`, `parser/arxml_parser.py:2517-2526` -/
def readCompiler : List RSlot :=
  [/- 2521 -/ { field := k!"compilers", path := (.first [k!"COMPILERS"] (.all k!"COMPILER" .nil)), item := (.objs [(k!"COMPILER", k!"readCompiler_Compiler")]), elems := true, named := true, fresh := true }]

/-- `readLinker`, `parser/arxml_parser.py:2528-2537` -/
def readLinker : List RSlot :=
  [/- 2532 -/ { field := k!"linkers", path := (.first [k!"LINKERS"] (.all k!"LINKER" .nil)), item := (.objs [(k!"LINKER", k!"readLinker_Linker")]), elems := true, named := true, fresh := true }]

/-- `readDependencyOnArtifact`, `parser/arxml_parser.py:2539-2553` -/
def readDependencyOnArtifact_GENERATED_ARTIFACTS_createGeneratedArtifact : List RSlot :=
  [/- 2543 -/ { field := k!"generatedArtifacts", path := (.first [k!"GENERATED-ARTIFACTS"] (.all k!"DEPENDENCY-ON-ARTIFACT" .nil)), item := (.objs [(k!"DEPENDENCY-ON-ARTIFACT", k!"readDependencyOnArtifact_DependencyOnArtifact")]), elems := true, named := true, fresh := true }]

/-- `readDependencyOnArtifact`, `parser/arxml_parser.py:2539-2553` -/
def readDependencyOnArtifact_REQUIRED_ARTIFACTS_createRequiredArtifact : List RSlot :=
  [/- 2543 -/ { field := k!"requiredArtifacts", path := (.first [k!"REQUIRED-ARTIFACTS"] (.all k!"DEPENDENCY-ON-ARTIFACT" .nil)), item := (.objs [(k!"DEPENDENCY-ON-ARTIFACT", k!"readDependencyOnArtifact_DependencyOnArtifact")]), elems := true, named := true, fresh := true }]

/-- `readDependencyOnArtifact`, `parser/arxml_parser.py:2539-2553` -/
def readDependencyOnArtifact_REQUIRED_GENERATOR_TOOLS_createRequiredGeneratorTool : List RSlot :=
  [/- 2543 -/ { field := k!"requiredGeneratorTools", path := (.first [k!"REQUIRED-GENERATOR-TOOLS"] (.all k!"DEPENDENCY-ON-ARTIFACT" .nil)), item := (.objs [(k!"DEPENDENCY-ON-ARTIFACT", k!"readDependencyOnArtifact_DependencyOnArtifact")]), elems := true, named := true, fresh := true }]

/-- `readImplementation`, `parser/arxml_parser.py:2800-2822` -/
def readImplementation : List RSlot :=
  /- 2801 -/ readIdentifiable ++
  /- 2802 -/ readCodeDescriptor ++
  [/- 2803 -/ { field := k!"programmingLanguage", path := (.first [k!"PROGRAMMING-LANGUAGE"] .nil), item := (.prim .lit) }] ++
  /- 2804 -/ readResourceConsumption ++
  /- 2805 -/ readBuildActionManifests ++
  /- 2806 -/ readCompiler ++
  /- 2807 -/ readLinker ++
  /- 2808 -/ readDependencyOnArtifact_GENERATED_ARTIFACTS_createGeneratedArtifact ++
  /- 2809 -/ readDependencyOnArtifact_REQUIRED_ARTIFACTS_createRequiredArtifact ++
  /- 2810 -/ readDependencyOnArtifact_REQUIRED_GENERATOR_TOOLS_createRequiredGeneratorTool ++
  [/- 2812 -/ { field := k!"hwElementRefs", path := (.all k!"HW-ELEMENT-REFS" (.all k!"HW-ELEMENT-REF" .nil)), item := (.prim .ref) },
   /- 2813 -/ { field := k!"buildActionManifestRef", path := (.first [k!"BUILD-ACTION-MANIFESTS", k!"BUILD-ACTION-MANIFEST-REF-CONDITIONAL", k!"BUILD-ACTION-MANIFEST-REF"] .nil), item := (.prim .ref) },
   /- 2814 -/ { field := k!"swVersion", path := (.first [k!"SW-VERSION"] .nil), item := (.prim .lit) },
   /- 2815 -/ { field := k!"swcBswMappingRef", path := (.first [k!"SWC-BSW-MAPPING-REF"] .nil), item := (.prim .ref) },
   /- 2816 -/ { field := k!"usedCodeGenerator", path := (.first [k!"USED-CODE-GENERATOR"] .nil), item := (.prim .lit) },
   /- 2817 -/ { field := k!"vendorId", path := (.first [k!"VENDOR-ID"] .nil), item := (.prim .positive) },
   /- 2822 -/ { field := k!"mcSupport", path := (.first [k!"MC-SUPPORT"] .nil), item := (.objs [(k!"MC-SUPPORT", k!"readImplementation_McSupportData")]) }]

/-- `readBswImplementationPreconfiguredConfigurationRefs`, `parser/arxml_parser.py:3017-3021` -/
def readBswImplementationPreconfiguredConfigurationRefs : List RSlot :=
  [/- 3021 -/ { field := k!"preconfiguredConfigurationRefs", path := (.first [k!"PRECONFIGURED-CONFIGURATION-REFS"] (.all k!"PRECONFIGURED-CONFIGURATION-REF" .nil)), item := (.prim .ref) }]

/-- `readBswImplementationRecommendedConfigurationRefs`, `parser/arxml_parser.py:3023-3027` -/
def readBswImplementationRecommendedConfigurationRefs : List RSlot :=
  [/- 3027 -/ { field := k!"recommendedConfigurationRefs", path := (.first [k!"RECOMMENDED-CONFIGURATION-REFS"] (.all k!"RECOMMENDED-CONFIGURATION-REF" .nil)), item := (.prim .ref) }]

/-- `readBswImplementationVendorSpecificModuleDefRefs`, `parser/arxml_parser.py:3011-3015` -/
def readBswImplementationVendorSpecificModuleDefRefs : List RSlot :=
  [/- 3015 -/ { field := k!"vendorSpecificModuleDefRefs", path := (.first [k!"VENDOR-SPECIFIC-MODULE-DEF-REFS"] (.all k!"VENDOR-SPECIFIC-MODULE-DEF-REF" .nil)), item := (.prim .ref) }]

/-- `readBswImplementation`, `parser/arxml_parser.py:3029-3041` -/
def readBswImplementation : List RSlot :=
  /- 3031 -/ readImplementation ++
  [/- 3032 -/ { field := k!"arReleaseVersion", path := (.first [k!"AR-RELEASE-VERSION"] .nil), item := (.prim .lit) },
   /- 3033 -/ { field := k!"behaviorRef", path := (.first [k!"BEHAVIOR-REF"] .nil), item := (.prim .ref) },
   /- 3034 -/ { field := k!"vendorApiInfix", path := (.first [k!"VENDOR-API-INFIX"] .nil), item := (.prim .lit) }] ++
  /- 3035 -/ readBswImplementationPreconfiguredConfigurationRefs ++
  /- 3036 -/ readBswImplementationRecommendedConfigurationRefs ++
  /- 3037 -/ readBswImplementationVendorSpecificModuleDefRefs

/-- `readARPackageElements`, `parser/arxml_parser.py:9023-9318` (the `BswImplementation` it makes) -/
def readARPackageElements_BswImplementation : List RSlot :=
  [/- 9081 -/ { field := k!"short_name", path := (.first [k!"SHORT-NAME"] .nil), item := .name, req := .always }] ++
  /- 9082 -/ readBswImplementation

/-- `readBswModuleDescriptionExpectedEntryRefs`, `parser/arxml_parser.py:2418-2422` -/
def readBswModuleDescriptionExpectedEntryRefs : List RSlot :=
  [/- 2422 -/ { field := k!"expectedEntryRefs", path := (.all k!"EXPECTED-ENTRYS" (.all k!"BSW-MODULE-ENTRY-REF-CONDITIONAL" (.first [k!"BSW-MODULE-ENTRY-REF"] .nil))), item := (.prim .ref) }]

/-- `readBswModuleDescriptionImplementedEntryRefs`, `parser/arxml_parser.py:1183-1187` -/
def readBswModuleDescriptionImplementedEntryRefs : List RSlot :=
  [/- 1187 -/ { field := k!"implementedEntryRefs", path := (.all k!"PROVIDED-ENTRYS" (.all k!"BSW-MODULE-ENTRY-REF-CONDITIONAL" (.first [k!"BSW-MODULE-ENTRY-REF"] .nil))), item := (.prim .ref) }]

/-- `readBswModuleDescriptionProvidedModeGroups`, `parser/arxml_parser.py:1197-1204` -/
def readBswModuleDescriptionProvidedModeGroups : List RSlot :=
  [/- 1201 -/ { field := k!"providedModeGroups", path := (.all k!"PROVIDED-MODE-GROUPS" (.all k!"MODE-DECLARATION-GROUP-PROTOTYPE" .nil)), item := (.objs [(k!"MODE-DECLARATION-GROUP-PROTOTYPE", k!"readModeSwitchInterfaceModeGroup_ModeDeclarationGroupPrototype")]), elems := true, named := true },
   /- 1204 -/ { field := 0, path := (.all k!"PROVIDED-MODE-GROUPS" (.all 0 .nil)), item := (.guard [k!"MODE-DECLARATION-GROUP-PROTOTYPE"] .unsupported) }]

/-- `readBswModuleDescriptionRequiredModeGroups`, `parser/arxml_parser.py:1206-1213` -/
def readBswModuleDescriptionRequiredModeGroups : List RSlot :=
  [/- 1210 -/ { field := k!"requiredModeGroups", path := (.all k!"REQUIRED-MODE-GROUPS" (.all k!"MODE-DECLARATION-GROUP-PROTOTYPE" .nil)), item := (.objs [(k!"MODE-DECLARATION-GROUP-PROTOTYPE", k!"readModeSwitchInterfaceModeGroup_ModeDeclarationGroupPrototype")]), elems := true, named := true },
   /- 1213 -/ { field := 0, path := (.all k!"REQUIRED-MODE-GROUPS" (.all 0 .nil)), item := (.guard [k!"MODE-DECLARATION-GROUP-PROTOTYPE"] .unsupported) }]

/-- `readBswModuleDescriptionProvidedClientServerEntries`, `parser/arxml_parser.py:2382-2389` -/
def readBswModuleDescriptionProvidedClientServerEntries : List RSlot :=
  [/- 2386 -/ { field := k!"providedClientServerEntries", path := (.all k!"PROVIDED-CLIENT-SERVER-ENTRYS" (.all k!"BSW-MODULE-CLIENT-SERVER-ENTRY" .nil)), item := (.objs [(k!"BSW-MODULE-CLIENT-SERVER-ENTRY", k!"readBswModuleDescriptionProvidedClientServerEntries_BswModuleClientServerEntry")]), elems := true, named := true },
   /- 2389 -/ { field := 0, path := (.all k!"PROVIDED-CLIENT-SERVER-ENTRYS" (.all 0 .nil)), item := (.guard [k!"BSW-MODULE-CLIENT-SERVER-ENTRY"] .unsupported) }]

/-- `readBswModuleDescriptionRequiredClientServerEntries`, `parser/arxml_parser.py:2391-2398` -/
def readBswModuleDescriptionRequiredClientServerEntries : List RSlot :=
  [/- 2395 -/ { field := k!"requiredClientServerEntries", path := (.all k!"REQUIRED-CLIENT-SERVER-ENTRYS" (.all k!"BSW-MODULE-CLIENT-SERVER-ENTRY" .nil)), item := (.objs [(k!"BSW-MODULE-CLIENT-SERVER-ENTRY", k!"readBswModuleDescriptionProvidedClientServerEntries_BswModuleClientServerEntry")]), elems := true, named := true },
   /- 2398 -/ { field := 0, path := (.all k!"REQUIRED-CLIENT-SERVER-ENTRYS" (.all 0 .nil)), item := (.guard [k!"BSW-MODULE-CLIENT-SERVER-ENTRY"] .unsupported) }]

/-- `readBswModuleDescriptionProvidedDatas`, `parser/arxml_parser.py:2358-2365` -/
def readBswModuleDescriptionProvidedDatas : List RSlot :=
  [/- 2362 -/ { field := k!"providedDatas", path := (.all k!"PROVIDED-DATAS" (.all k!"VARIABLE-DATA-PROTOTYPE" .nil)), item := (.objs [(k!"VARIABLE-DATA-PROTOTYPE", k!"readNvBlockDescriptor_VariableDataPrototype")]), elems := true, named := true },
   /- 2365 -/ { field := 0, path := (.all k!"PROVIDED-DATAS" (.all 0 .nil)), item := (.guard [k!"VARIABLE-DATA-PROTOTYPE"] .unsupported) }]

/-- `readBswModuleDescriptionRequiredDatas`, `parser/arxml_parser.py:2367-2374` -/
def readBswModuleDescriptionRequiredDatas : List RSlot :=
  [/- 2371 -/ { field := k!"requiredDatas", path := (.all k!"REQUIRED-DATAS" (.all k!"VARIABLE-DATA-PROTOTYPE" .nil)), item := (.objs [(k!"VARIABLE-DATA-PROTOTYPE", k!"readNvBlockDescriptor_VariableDataPrototype")]), elems := true, named := true },
   /- 2374 -/ { field := 0, path := (.all k!"REQUIRED-DATAS" (.all 0 .nil)), item := (.guard [k!"VARIABLE-DATA-PROTOTYPE"] .unsupported) }]

/-- `readBswModuleDescriptionBswInternalBehaviors`, `parser/arxml_parser.py:2328-2335` -/
def readBswModuleDescriptionBswInternalBehaviors : List RSlot :=
  [/- 2332 -/ { field := k!"internalBehaviors", path := (.all k!"INTERNAL-BEHAVIORS" (.all k!"BSW-INTERNAL-BEHAVIOR" .nil)), item := (.objs [(k!"BSW-INTERNAL-BEHAVIOR", k!"readBswModuleDescriptionBswInternalBehaviors_BswInternalBehavior")]), elems := true, named := true },
   /- 2335 -/ { field := 0, path := (.all k!"INTERNAL-BEHAVIORS" (.all 0 .nil)), item := (.guard [k!"BSW-INTERNAL-BEHAVIOR"] .unsupported) }]

/-- `readBswModuleDescriptionRequiredTriggers`, `parser/arxml_parser.py:2349-2356` -/
def readBswModuleDescriptionRequiredTriggers : List RSlot :=
  [/- 2353 -/ { field := k!"requiredTriggers", path := (.all k!"REQUIRED-TRIGGERS" (.all k!"TRIGGER" .nil)), item := (.objs [(k!"TRIGGER", k!"readBswModuleDescriptionRequiredTriggers_Trigger")]), elems := true, named := true },
   /- 2356 -/ { field := 0, path := (.all k!"REQUIRED-TRIGGERS" (.all 0 .nil)), item := (.guard [k!"TRIGGER"] .unsupported) }]

/-- `readBswModuleDescriptionBswModuleDependencies`, `parser/arxml_parser.py:2424-2432` -/
def readBswModuleDescriptionBswModuleDependencies : List RSlot :=
  [/- 2428 -/ { field := k!"bswModuleDependencies", path := (.all k!"BSW-MODULE-DEPENDENCYS" (.all k!"BSW-MODULE-DEPENDENCY" .nil)), item := (.objs [(k!"BSW-MODULE-DEPENDENCY", k!"readBswModuleDescriptionBswModuleDependencies_BswModuleDependency")]), elems := true, named := true },
   /- 2432 -/ { field := 0, path := (.all k!"BSW-MODULE-DEPENDENCYS" (.all 0 .nil)), item := (.guard [k!"BSW-MODULE-DEPENDENCY"] .unsupported) }]

/-- `readBswModuleDescriptionBswModuleDocumentation`, `parser/arxml_parser.py:2434-2441` -/
def readBswModuleDescriptionBswModuleDocumentation : List RSlot :=
  [/- 2441 -/ { field := k!"bswModuleDocumentation", path := (.first [k!"BSW-MODULE-DOCUMENTATIONS"] (.first [k!"SW-COMPONENT-DOCUMENTATION"] .nil)), item := (.objs [(k!"SW-COMPONENT-DOCUMENTATION", k!"readSwComponentDocumentationElement_SwComponentDocumentation")]) }]

/-- `readBswModuleDescription`, `parser/arxml_parser.py:2400-2416` -/
def readBswModuleDescription : List RSlot :=
  /- 2403 -/ readIdentifiable ++
  [/- 2404 -/ { field := k!"moduleId", path := (.first [k!"MODULE-ID"] .nil), item := (.prim .numerical) }] ++
  /- 2405 -/ readBswModuleDescriptionExpectedEntryRefs ++
  /- 2406 -/ readBswModuleDescriptionImplementedEntryRefs ++
  /- 2407 -/ readBswModuleDescriptionProvidedModeGroups ++
  /- 2408 -/ readBswModuleDescriptionRequiredModeGroups ++
  /- 2409 -/ readBswModuleDescriptionProvidedClientServerEntries ++
  /- 2410 -/ readBswModuleDescriptionRequiredClientServerEntries ++
  /- 2411 -/ readBswModuleDescriptionProvidedDatas ++
  /- 2412 -/ readBswModuleDescriptionRequiredDatas ++
  /- 2413 -/ readBswModuleDescriptionBswInternalBehaviors ++
  /- 2414 -/ readBswModuleDescriptionRequiredTriggers ++
  /- 2415 -/ readBswModuleDescriptionBswModuleDependencies ++
  /- 2416 -/ readBswModuleDescriptionBswModuleDocumentation

/-- `readARPackageElements`, `parser/arxml_parser.py:9023-9318` (the `BswModuleDescription` it makes) -/
def readARPackageElements_BswModuleDescription : List RSlot :=
  [/- 9072 -/ { field := k!"short_name", path := (.first [k!"SHORT-NAME"] .nil), item := .name, req := .always }] ++
  /- 9073 -/ readBswModuleDescription

/-- `readBswModuleEntryArguments`, `parser/arxml_parser.py:2449-2456` -/
def readBswModuleEntryArguments : List RSlot :=
  [/- 2453 -/ { field := k!"arguments", path := (.all k!"ARGUMENTS" (.all k!"SW-SERVICE-ARG" .nil)), item := (.objs [(k!"SW-SERVICE-ARG", k!"readBswModuleEntryArguments_SwServiceArg")]), elems := true, named := true, fresh := true },
   /- 2456 -/ { field := 0, path := (.all k!"ARGUMENTS" (.all 0 .nil)), item := (.guard [k!"SW-SERVICE-ARG"] .unsupported) }]

/-- `readBswModuleEntryReturnType`, `parser/arxml_parser.py:2458-2463` -/
def readBswModuleEntryReturnType : List RSlot :=
  [/- 2462 -/ { field := k!"returnType", path := (.first [k!"RETURN-TYPE"] .nil), item := (.objs [(k!"RETURN-TYPE", k!"readBswModuleEntryArguments_SwServiceArg")]), elems := true, named := true, fresh := true }]

/-- `readBswModuleEntry`, `parser/arxml_parser.py:2465-2478` -/
def readBswModuleEntry : List RSlot :=
  /- 2467 -/ readIdentifiable ++
  /- 2468 -/ readBswModuleEntryArguments ++
  [/- 2469 -/ { field := k!"isReentrant", path := (.first [k!"IS-REENTRANT"] .nil), item := (.prim .boolean) },
   /- 2470 -/ { field := k!"isSynchronous", path := (.first [k!"IS-SYNCHRONOUS"] .nil), item := (.prim .boolean) },
   /- 2471 -/ { field := k!"serviceId", path := (.first [k!"SERVICE-ID"] .nil), item := (.prim .numerical) },
   /- 2472 -/ { field := k!"callType", path := (.first [k!"CALL-TYPE"] .nil), item := (.prim .lit) },
   /- 2473 -/ { field := k!"executionContext", path := (.first [k!"EXECUTION-CONTEXT"] .nil), item := (.prim .lit) },
   /- 2474 -/ { field := k!"swServiceImplPolicy", path := (.first [k!"SW-SERVICE-IMPL-POLICY"] .nil), item := (.prim .lit) },
   /- 2475 -/ { field := k!"bswEntryKind", path := (.first [k!"BSW-ENTRY-KIND"] .nil), item := (.prim .lit) },
   /- 2476 -/ { field := k!"role", path := (.first [k!"ROLE"] .nil), item := (.prim .lit) },
   /- 2477 -/ { field := k!"functionPrototypeEmitter", path := (.first [k!"FUNCTION-PROTOTYPE-EMITTER"] .nil), item := (.prim .lit) }] ++
  /- 2478 -/ readBswModuleEntryReturnType

/-- `readARPackageElements`, `parser/arxml_parser.py:9023-9318` (the `BswModuleEntry` it makes) -/
def readARPackageElements_BswModuleEntry : List RSlot :=
  [/- 9075 -/ { field := k!"short_name", path := (.first [k!"SHORT-NAME"] .nil), item := .name, req := .always }] ++
  /- 9076 -/ readBswModuleEntry

/-- `readCommunicationClusterPhysicalChannels`, `parser/arxml_parser.py:6255-6271` -/
def readCommunicationClusterPhysicalChannels : List RSlot :=
  [/- 6259 -/ { field := k!"physicalChannel", path := (.all k!"PHYSICAL-CHANNELS" (.all 0 .nil)), item := (.objs [(k!"CAN-PHYSICAL-CHANNEL", k!"readCommunicationClusterPhysicalChannels_CanPhysicalChannel"), (k!"LIN-PHYSICAL-CHANNEL", k!"readCommunicationClusterPhysicalChannels_LinPhysicalChannel"), (k!"ETHERNET-PHYSICAL-CHANNEL", k!"readCommunicationClusterPhysicalChannels_EthernetPhysicalChannel"), (k!"FLEXRAY-PHYSICAL-CHANNEL", k!"readCommunicationClusterPhysicalChannels_FlexrayPhysicalChannel")]), elems := true, named := true, fresh := true },
   /- 6271 -/ { field := 0, path := (.all k!"PHYSICAL-CHANNELS" (.all 0 .nil)), item := (.guard [k!"CAN-PHYSICAL-CHANNEL", k!"LIN-PHYSICAL-CHANNEL", k!"ETHERNET-PHYSICAL-CHANNEL", k!"FLEXRAY-PHYSICAL-CHANNEL"] .unsupported) }]

/-- `readCommunicationCluster`, `parser/arxml_parser.py:6273-6277` -/
def readCommunicationCluster : List RSlot :=
  [/- 6274 -/ { field := k!"baudrate", path := (.first [k!"BAUDRATE"] .nil), item := (.prim .numerical) }] ++
  /- 6275 -/ readCommunicationClusterPhysicalChannels ++
  [/- 6276 -/ { field := k!"protocolName", path := (.first [k!"PROTOCOL-NAME"] .nil), item := (.prim .lit) },
   /- 6277 -/ { field := k!"protocolVersion", path := (.first [k!"PROTOCOL-VERSION"] .nil), item := (.prim .lit) }]

/-- `readAbstractCanCluster`, `parser/arxml_parser.py:6289-6293` -/
def readAbstractCanCluster : List RSlot :=
  /- 6290 -/ readCommunicationCluster ++
  [/- 6291 -/ { field := k!"busOffRecovery", path := (.first [k!"BUS-OFF-RECOVERY"] .nil), item := (.objs [(k!"BUS-OFF-RECOVERY", k!"getCanClusterBusOffRecovery_CanClusterBusOffRecovery")]) },
   /- 6292 -/ { field := k!"canFdBaudrate", path := (.first [k!"CAN-FD-BAUDRATE"] .nil), item := (.prim .numerical) },
   /- 6293 -/ { field := k!"canXlBaudrate", path := (.first [k!"CAN-XL-BAUDRATE"] .nil), item := (.prim .numerical) }]

/-- `readCanCluster`, `parser/arxml_parser.py:6302-6307` -/
def readCanCluster : List RSlot :=
  /- 6304 -/ readIdentifiable ++
  /- 6307 -/ via (.first [k!"CAN-CLUSTER-VARIANTS", k!"CAN-CLUSTER-CONDITIONAL"] .nil) readAbstractCanCluster

/-- `readARPackageElements`, `parser/arxml_parser.py:9023-9318` (the `CanCluster` it makes) -/
def readARPackageElements_CanCluster : List RSlot :=
  [/- 9171 -/ { field := k!"short_name", path := (.first [k!"SHORT-NAME"] .nil), item := .name, req := .always }] ++
  /- 9172 -/ readCanCluster

/-- `readPduToFrameMappings`, `parser/arxml_parser.py:6681-6689` -/
def readPduToFrameMappings : List RSlot :=
  [/- 6685 -/ { field := k!"pduToFrameMappings", path := (.all k!"PDU-TO-FRAME-MAPPINGS" (.all k!"PDU-TO-FRAME-MAPPING" .nil)), item := (.objs [(k!"PDU-TO-FRAME-MAPPING", k!"readPduToFrameMappings_PduToFrameMapping")]), elems := true, named := true }]

/-- `readFrame`, `parser/arxml_parser.py:6691-6694` -/
def readFrame : List RSlot :=
  /- 6692 -/ readIdentifiable ++
  [/- 6693 -/ { field := k!"frameLength", path := (.first [k!"FRAME-LENGTH"] .nil), item := (.prim .numerical) }] ++
  /- 6694 -/ readPduToFrameMappings

/-- `readCanFrame`, `parser/arxml_parser.py:7126-7128`; also `readFlexrayFrame`, `readGenericEthernetFrame`, `readLinUnconditionalFrame` -/
def readCanFrame : List RSlot :=
  /- 7128 -/ readFrame

/-- `readARPackageElements`, `parser/arxml_parser.py:9023-9318` (the `CanFrame` it makes) -/
def readARPackageElements_CanFrame : List RSlot :=
  [/- 9174 -/ { field := k!"short_name", path := (.first [k!"SHORT-NAME"] .nil), item := .name, req := .always }] ++
  /- 9175 -/ readCanFrame

/-- `readTpConfig`, `parser/arxml_parser.py:6955-6957` -/
def readTpConfig : List RSlot :=
  /- 6956 -/ readIdentifiable ++
  [/- 6957 -/ { field := k!"communicationClusterRef", path := (.first [k!"COMMUNICATION-CLUSTER-REF"] .nil), item := (.prim .ref) }]

/-- `readCanTpConfigTpAddresses`, `parser/arxml_parser.py:6964-6971` -/
def readCanTpConfigTpAddresses : List RSlot :=
  [/- 6968 -/ { field := k!"tpAddresses", path := (.all k!"TP-ADDRESSS" (.all k!"CAN-TP-ADDRESS" .nil)), item := (.objs [(k!"CAN-TP-ADDRESS", k!"readCanTpConfigTpAddresses_CanTpAddress")]), elems := true, named := true },
   /- 6971 -/ { field := 0, path := (.all k!"TP-ADDRESSS" (.all 0 .nil)), item := (.guard [k!"CAN-TP-ADDRESS"] .unsupported) }]

/-- `readCanTpConfigTpChannels`, `parser/arxml_parser.py:6978-6985` -/
def readCanTpConfigTpChannels : List RSlot :=
  [/- 6982 -/ { field := k!"tpChannels", path := (.all k!"TP-CHANNELS" (.all k!"CAN-TP-CHANNEL" .nil)), item := (.objs [(k!"CAN-TP-CHANNEL", k!"readCanTpConfigTpChannels_CanTpChannel")]), elems := true, named := true },
   /- 6985 -/ { field := 0, path := (.all k!"TP-CHANNELS" (.all 0 .nil)), item := (.guard [k!"CAN-TP-CHANNEL"] .unsupported) }]

/-- `readCanTpConfigTpConnections`, `parser/arxml_parser.py:7017-7025` -/
def readCanTpConfigTpConnections : List RSlot :=
  [/- 7023 -/ { field := k!"tpConnections", path := (.all k!"TP-CONNECTIONS" (.all k!"CAN-TP-CONNECTION" .nil)), item := (.objs [(k!"CAN-TP-CONNECTION", k!"readCanTpConfigTpConnections_CanTpConnection")]) },
   /- 7025 -/ { field := 0, path := (.all k!"TP-CONNECTIONS" (.all 0 .nil)), item := (.guard [k!"CAN-TP-CONNECTION"] .unsupported) }]

/-- `readCanTpConfigTpEcus`, `parser/arxml_parser.py:7031-7039` -/
def readCanTpConfigTpEcus : List RSlot :=
  [/- 7037 -/ { field := k!"tpEcus", path := (.all k!"TP-ECUS" (.all k!"CAN-TP-ECU" .nil)), item := (.objs [(k!"CAN-TP-ECU", k!"readCanTpConfigTpEcus_CanTpEcu")]) },
   /- 7039 -/ { field := 0, path := (.all k!"TP-ECUS" (.all 0 .nil)), item := (.guard [k!"CAN-TP-ECU"] .unsupported) }]

/-- `readCanTpConfigTpNodes`, `parser/arxml_parser.py:7050-7057` -/
def readCanTpConfigTpNodes : List RSlot :=
  [/- 7054 -/ { field := k!"tpNodes", path := (.all k!"TP-NODES" (.all k!"CAN-TP-NODE" .nil)), item := (.objs [(k!"CAN-TP-NODE", k!"readCanTpConfigTpNodes_CanTpNode")]), elems := true, named := true },
   /- 7057 -/ { field := 0, path := (.all k!"TP-NODES" (.all 0 .nil)), item := (.guard [k!"CAN-TP-NODE"] .unsupported) }]

/-- `readCanTpConfig`, `parser/arxml_parser.py:7059-7066` -/
def readCanTpConfig : List RSlot :=
  /- 7061 -/ readTpConfig ++
  /- 7062 -/ readCanTpConfigTpAddresses ++
  /- 7063 -/ readCanTpConfigTpChannels ++
  /- 7064 -/ readCanTpConfigTpConnections ++
  /- 7065 -/ readCanTpConfigTpEcus ++
  /- 7066 -/ readCanTpConfigTpNodes

/-- `readARPackageElements`, `parser/arxml_parser.py:9023-9318` (the `CanTpConfig` it makes) -/
def readARPackageElements_CanTpConfig : List RSlot :=
  [/- 9153 -/ { field := k!"short_name", path := (.first [k!"SHORT-NAME"] .nil), item := .name, req := .always }] ++
  /- 9154 -/ readCanTpConfig

/-- `readPortInterface`, `parser/arxml_parser.py:5077-5080` -/
def readPortInterface : List RSlot :=
  /- 5078 -/ readIdentifiable ++
  [/- 5079 -/ { field := k!"isService", path := (.first [k!"IS-SERVICE"] .nil), item := (.prim .boolean) },
   /- 5080 -/ { field := k!"serviceKind", path := (.first [k!"SERVICE-KIND"] .nil), item := (.prim .lit) }]

/-- `readClientServerInterfaceOperations`, `parser/arxml_parser.py:5061-5068` -/
def readClientServerInterfaceOperations : List RSlot :=
  [/- 5065 -/ { field := k!"operations", path := (.all k!"OPERATIONS" (.all k!"CLIENT-SERVER-OPERATION" .nil)), item := (.objs [(k!"CLIENT-SERVER-OPERATION", k!"readClientServerInterfaceOperations_ClientServerOperation")]), elems := true, named := true },
   /- 5068 -/ { field := 0, path := (.all k!"OPERATIONS" (.all 0 .nil)), item := (.guard [k!"CLIENT-SERVER-OPERATION"] .unsupported) }]

end Verif.Gen.R
