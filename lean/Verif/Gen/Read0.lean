import Verif.Model.Codec
-- generated by tools/gen_codec.py; do not edit
namespace Verif.Gen.R
open Verif Verif.Model

/-- `_readVariableAccesses`, `parser/arxml_parser.py:1148-1181` -/
def _readVariableAccesses_DATA_READ_ACCESSS : List RSlot :=
  [/- 1162 -/ { field := k!"dataReadAccesses", path := (.all k!"DATA-READ-ACCESSS" (.all k!"VARIABLE-ACCESS" .nil)), item := (.objs [(k!"VARIABLE-ACCESS", k!"_readVariableAccesses_VariableAccess")]), elems := true, named := true }]

/-- `_readVariableAccesses`, `parser/arxml_parser.py:1148-1181` -/
def _readVariableAccesses_DATA_RECEIVE_POINT_BY_ARGUMENTS : List RSlot :=
  [/- 1156 -/ { field := k!"dataReceivePointByArguments", path := (.all k!"DATA-RECEIVE-POINT-BY-ARGUMENTS" (.all k!"VARIABLE-ACCESS" .nil)), item := (.objs [(k!"VARIABLE-ACCESS", k!"_readVariableAccesses_VariableAccess")]), elems := true, named := true }]

/-- `_readVariableAccesses`, `parser/arxml_parser.py:1148-1181` -/
def _readVariableAccesses_DATA_RECEIVE_POINT_BY_VALUES : List RSlot :=
  [/- 1159 -/ { field := k!"dataReceivePointByValues", path := (.all k!"DATA-RECEIVE-POINT-BY-VALUES" (.all k!"VARIABLE-ACCESS" .nil)), item := (.objs [(k!"VARIABLE-ACCESS", k!"_readVariableAccesses_VariableAccess")]), elems := true, named := true }]

/-- `_readVariableAccesses`, `parser/arxml_parser.py:1148-1181` -/
def _readVariableAccesses_DATA_SEND_POINTS : List RSlot :=
  [/- 1168 -/ { field := k!"dataSendPoints", path := (.all k!"DATA-SEND-POINTS" (.all k!"VARIABLE-ACCESS" .nil)), item := (.objs [(k!"VARIABLE-ACCESS", k!"_readVariableAccesses_VariableAccess")]), elems := true, named := true }]

/-- `_readVariableAccesses`, `parser/arxml_parser.py:1148-1181` -/
def _readVariableAccesses_DATA_WRITE_ACCESSS : List RSlot :=
  [/- 1165 -/ { field := k!"dataWriteAccesses", path := (.all k!"DATA-WRITE-ACCESSS" (.all k!"VARIABLE-ACCESS" .nil)), item := (.objs [(k!"VARIABLE-ACCESS", k!"_readVariableAccesses_VariableAccess")]), elems := true, named := true }]

/-- `_readVariableAccesses`, `parser/arxml_parser.py:1148-1181` -/
def _readVariableAccesses_READ_LOCAL_VARIABLES : List RSlot :=
  [/- 1174 -/ { field := k!"readLocalVariables", path := (.all k!"READ-LOCAL-VARIABLES" (.all k!"VARIABLE-ACCESS" .nil)), item := (.objs [(k!"VARIABLE-ACCESS", k!"_readVariableAccesses_VariableAccess")]), elems := true, named := true }]

/-- `readReferrable`, `parser/arxml_parser.py:907-918` -/
def readReferrable : List RSlot :=
  [/- 908 -/ { field := k!"timestamp", path := .nil, item := (.attr k!"T" .raw) },
   /- 908 -/ { field := k!"uuid", path := .nil, item := (.attr k!"UUID" .raw) },
   /- 918 -/ { field := k!"shortNameFragments", path := (.all k!"SHORT-NAME-FRAGMENTS" (.all k!"SHORT-NAME-FRAGMENT" .nil)), item := (.objs [(k!"SHORT-NAME-FRAGMENT", k!"readReferrable_ShortNameFragment")]) }]

/-- `readMultilanguageReferrable`, `parser/arxml_parser.py:920-922` -/
def readMultilanguageReferrable : List RSlot :=
  /- 921 -/ readReferrable ++
  [/- 922 -/ { field := k!"longName", path := (.first [k!"LONG-NAME"] .nil), item := (.objs [(k!"LONG-NAME", k!"getMultilanguageLongName_MultilanguageLongName")]) }]

/-- `readIdentifiable`, `parser/arxml_parser.py:933-948` -/
def readIdentifiable : List RSlot :=
  /- 934 -/ readMultilanguageReferrable ++
  [/- 3893 -/ { field := 0, path := (.all k!"ANNOTATIONS" (.all 0 .nil)), item := (.guard [k!"ANNOTATION"] .unsupported) },
   /- 937 -/ { field := k!"annotations", path := (.all k!"ANNOTATIONS" (.all k!"ANNOTATION" .nil)), item := (.objs [(k!"ANNOTATION", k!"getAnnotations_Annotation")]) },
   /- 939 -/ { field := k!"category", path := (.first [k!"CATEGORY"] .nil), item := (.prim .lit) },
   /- 940 -/ { field := k!"desc", path := (.first [k!"DESC"] .nil), item := (.objs [(k!"DESC", k!"getMultiLanguageOverviewParagraph_MultiLanguageOverviewParagraph")]) },
   /- 941 -/ { field := k!"introduction", path := (.first [k!"INTRODUCTION"] .nil), item := (.objs [(k!"INTRODUCTION", k!"getDocumentationBlock_DocumentationBlock")]) },
   /- 943 -/ { field := k!"adminData", path := (.first [k!"ADMIN-DATA"] .nil), item := (.objs [(k!"ADMIN-DATA", k!"getAdminData_AdminData")]) },
   /- 948 -/ { field := k!"variationPoint", path := (.first [k!"VARIATION-POINT"] .nil), item := (.objs [(k!"VARIATION-POINT", k!"readIdentifiable_VariationPoint")]) }]

/-- `_readVariableAccesses`, `parser/arxml_parser.py:1148-1181` (the `VariableAccess` it makes) -/
def _readVariableAccesses_VariableAccess : List RSlot :=
  [/- 1162 -/ { field := k!"short_name", path := (.first [k!"SHORT-NAME"] .nil), item := .name, req := .always },
   /- 1163 -/ { field := k!"accessedVariableRef", path := (.first [k!"ACCESSED-VARIABLE"] .nil), item := (.objs [(k!"ACCESSED-VARIABLE", k!"getAutosarVariableRef_AutosarVariableRef")]) }] ++
  /- 1181 -/ readIdentifiable

/-- `_readVariableAccesses`, `parser/arxml_parser.py:1148-1181` -/
def _readVariableAccesses_WRITTEN_LOCAL_VARIABLES : List RSlot :=
  [/- 1171 -/ { field := k!"writtenLocalVariables", path := (.all k!"WRITTEN-LOCAL-VARIABLES" (.all k!"VARIABLE-ACCESS" .nil)), item := (.objs [(k!"VARIABLE-ACCESS", k!"_readVariableAccesses_VariableAccess")]), elems := true, named := true }]

/-- `readAdminDataSdgs`, `parser/arxml_parser.py:853-859` -/
def readAdminDataSdgs : List RSlot :=
  [/- 857 -/ { field := k!"sdgs", path := (.all k!"SDGS" (.all k!"SDG" .nil)), item := (.objs [(k!"SDG", k!"getSdg_Sdg")]) },
   /- 859 -/ { field := 0, path := (.all k!"SDGS" (.all 0 .nil)), item := (.guard [k!"SDG"] .unsupported) }]

/-- `readAdminDataDocRevisions`, `parser/arxml_parser.py:883-891` -/
def readAdminDataDocRevisions : List RSlot :=
  [/- 889 -/ { field := k!"DocRevisions", path := (.all k!"DOC-REVISIONS" (.all k!"DOC-REVISION" .nil)), item := (.objs [(k!"DOC-REVISION", k!"readAdminDataDocRevisions_DocRevision")]) },
   /- 891 -/ { field := 0, path := (.all k!"DOC-REVISIONS" (.all 0 .nil)), item := (.guard [k!"DOC-REVISION"] .unsupported) }]

/-- `getAdminData`, `parser/arxml_parser.py:893-905` (the `AdminData` it makes) -/
def getAdminData_AdminData : List RSlot :=
  [/- 899 -/ { field := k!"timestamp", path := .nil, item := (.attr k!"T" .raw) },
   /- 899 -/ { field := k!"uuid", path := .nil, item := (.attr k!"UUID" .raw) },
   /- 900 -/ { field := k!"language", path := (.first [k!"LANGUAGE"] .nil), item := (.prim .lit) },
   /- 901 -/ { field := k!"usedLanguages", path := (.first [k!"USED-LANGUAGES"] .nil), item := (.objs [(k!"USED-LANGUAGES", k!"getMultiLanguagePlainText_MultiLanguagePlainText")]) }] ++
  /- 903 -/ readAdminDataSdgs ++
  /- 904 -/ readAdminDataDocRevisions

/-- `readGeneralAnnotation`, `parser/arxml_parser.py:3879-3882` -/
def readGeneralAnnotation : List RSlot :=
  [/- 3880 -/ { field := k!"annotationOrigin", path := (.first [k!"ANNOTATION-ORIGIN"] .nil), item := (.prim .lit) },
   /- 3881 -/ { field := k!"annotationText", path := (.first [k!"ANNOTATION-TEXT"] .nil), item := (.objs [(k!"ANNOTATION-TEXT", k!"getDocumentationBlock_DocumentationBlock")]) },
   /- 3882 -/ { field := k!"label", path := (.first [k!"LABEL"] .nil), item := (.objs [(k!"LABEL", k!"getMultilanguageLongName_MultilanguageLongName")]) }]

/-- `getAnnotations`, `parser/arxml_parser.py:3884-3894` (the `Annotation` it makes) -/
def getAnnotations_Annotation : List RSlot :=
  /- 3890 -/ readGeneralAnnotation

/-- `getAnyInstanceRef`, `parser/arxml_parser.py:8379-8388` (the `AnyInstanceRef` it makes) -/
def getAnyInstanceRef_AnyInstanceRef : List RSlot :=
  [/- 8384 -/ { field := k!"baseRef", path := (.first [k!"BASE-REF"] .nil), item := (.prim .ref) },
   /- 8386 -/ { field := k!"contextElementRefs", path := (.all k!"CONTEXT-ELEMENT-REF" .nil), item := (.prim .ref) },
   /- 8387 -/ { field := k!"targetRef", path := (.first [k!"TARGET-REF"] .nil), item := (.prim .ref) }]

/-- `getApplicationCompositeElementInPortInterfaceInstanceRef`, `parser/arxml_parser.py:4136-4143` (the `ApplicationCompositeElementInPortInterfaceInstanceRef` it makes) -/
def getApplicationCompositeElementInPortInterfaceInstanceRef_ApplicationCompositeElementInPortInterfaceInstanceRef : List RSlot :=
  [/- 4141 -/ { field := k!"rootDataPrototypeRef", path := (.first [k!"ROOT-DATA-PROTOTYPE-REF"] .nil), item := (.prim .ref) },
   /- 4142 -/ { field := k!"targetDataPrototypeRef", path := (.first [k!"TARGET-DATA-PROTOTYPE-REF"] .nil), item := (.prim .ref) }]

/-- `readScheduleTableEntry`, `parser/arxml_parser.py:5882-5884` -/
def readScheduleTableEntry : List RSlot :=
  [/- 5883 -/ { field := k!"delay", path := (.first [k!"DELAY"] .nil), item := (.prim .time) },
   /- 5884 -/ { field := k!"positionInTable", path := (.first [k!"POSITION-IN-TABLE"] .nil), item := (.prim .integer) }]

/-- `getApplicationEntry`, `parser/arxml_parser.py:5886-5892` (the `ApplicationEntry` it makes) -/
def getApplicationEntry_ApplicationEntry : List RSlot :=
  /- 5890 -/ readScheduleTableEntry ++
  [/- 5891 -/ { field := k!"frameTriggeringRef", path := (.first [k!"FRAME-TRIGGERING-REF"] .nil), item := (.prim .ref) }]

/-- `readValueSpecification`, `parser/arxml_parser.py:5260-5262` -/
def readValueSpecification : List RSlot :=
  [/- 5261 -/ { field := k!"timestamp", path := .nil, item := (.attr k!"T" .raw) },
   /- 5261 -/ { field := k!"uuid", path := .nil, item := (.attr k!"UUID" .raw) },
   /- 5262 -/ { field := k!"shortLabel", path := (.first [k!"SHORT-LABEL"] .nil), item := (.prim .lit) }]

/-- `getApplicationRuleBasedValueSpecification`, `parser/arxml_parser.py:5323-5330` (the `ApplicationRuleBasedValueSpecification` it makes) -/
def getApplicationRuleBasedValueSpecification_ApplicationRuleBasedValueSpecification : List RSlot :=
  /- 5325 -/ readValueSpecification ++
  [/- 5326 -/ { field := k!"category", path := (.first [k!"CATEGORY"] .nil), item := (.prim .lit) },
   /- 5328 -/ { field := k!"swAxisConts", path := (.all k!"SW-AXIS-CONTS" (.all k!"RULE-BASED-AXIS-CONT" .nil)), item := (.objs [(k!"RULE-BASED-AXIS-CONT", k!"getRuleBasedAxisCont_RuleBasedAxisCont")]) },
   /- 5329 -/ { field := k!"swValueCont", path := (.first [k!"SW-VALUE-CONT"] .nil), item := (.objs [(k!"SW-VALUE-CONT", k!"getRuleBasedValueCont_RuleBasedValueCont")]) }]

/-- `getApplicationValueSpecification`, `parser/arxml_parser.py:5265-5271` (the `ApplicationValueSpecification` it makes) -/
def getApplicationValueSpecification_ApplicationValueSpecification : List RSlot :=
  /- 5267 -/ readValueSpecification ++
  [/- 5268 -/ { field := k!"category", path := (.first [k!"CATEGORY"] .nil), item := (.prim .lit) },
   /- 5269 -/ { field := k!"shortLabel", path := (.first [k!"SHORT-LABEL"] .nil), item := (.prim .lit) },
   /- 5270 -/ { field := k!"swValueCont", path := (.first [k!"SW-VALUE-CONT"] .nil), item := (.objs [(k!"SW-VALUE-CONT", k!"getSwValueCont_SwValueCont")]) }]

/-- `getArrayValueSpecification`, `parser/arxml_parser.py:5358-5365` (the `ArrayValueSpecification` it makes) -/
def getArrayValueSpecification_ArrayValueSpecification : List RSlot :=
  /- 5361 -/ readValueSpecification ++
  [/- 5364 -/ { field := k!"element", path := (.all k!"ELEMENTS" (.all 0 .nil)), item := (.objs [(k!"APPLICATION-VALUE-SPECIFICATION", k!"getApplicationValueSpecification_ApplicationValueSpecification"), (k!"APPLICATION-RULE-BASED-VALUE-SPECIFICATION", k!"getApplicationRuleBasedValueSpecification_ApplicationRuleBasedValueSpecification"), (k!"COMPOSITE-RULE-BASED-VALUE-SPECIFICATION", k!"getCompositeRuleBasedValueSpecification_CompositeRuleBasedValueSpecification"), (k!"RECORD-VALUE-SPECIFICATION", k!"getRecordValueSpecification_RecordValueSpecification"), (k!"NUMERICAL-VALUE-SPECIFICATION", k!"getNumericalValueSpecification_NumericalValueSpecification"), (k!"ARRAY-VALUE-SPECIFICATION", k!"getArrayValueSpecification_ArrayValueSpecification"), (k!"TEXT-VALUE-SPECIFICATION", k!"getTextValueSpecification_TextValueSpecification"), (k!"CONSTANT-REFERENCE", k!"getConstantReference_ConstantReference")]) },
   /- 5392 -/ { field := 0, path := (.all k!"ELEMENTS" (.all 0 .nil)), item := (.guard [k!"APPLICATION-VALUE-SPECIFICATION", k!"APPLICATION-RULE-BASED-VALUE-SPECIFICATION", k!"COMPOSITE-RULE-BASED-VALUE-SPECIFICATION", k!"RECORD-VALUE-SPECIFICATION", k!"NUMERICAL-VALUE-SPECIFICATION", k!"ARRAY-VALUE-SPECIFICATION", k!"TEXT-VALUE-SPECIFICATION", k!"CONSTANT-REFERENCE"] .unbound) }]

/-- `readEngineeringObject`, `parser/arxml_parser.py:2480-2486` -/
def readEngineeringObject : List RSlot :=
  [/- 2481 -/ { field := k!"timestamp", path := .nil, item := (.attr k!"T" .raw) },
   /- 2481 -/ { field := k!"uuid", path := .nil, item := (.attr k!"UUID" .raw) },
   /- 2482 -/ { field := k!"shortLabel", path := (.first [k!"SHORT-LABEL"] .nil), item := (.prim .lit) },
   /- 2483 -/ { field := k!"category", path := (.first [k!"CATEGORY"] .nil), item := (.prim .lit) },
   /- 2485 -/ { field := k!"revisionLabels", path := (.all k!"REVISION-LABELS" (.all k!"REVISION-LABEL" .nil)), item := (.prim .revision) },
   /- 2486 -/ { field := k!"domain", path := (.first [k!"DOMAIN"] .nil), item := (.prim .lit) }]

/-- `getAutosarEngineeringObject`, `parser/arxml_parser.py:2488-2492` (the `AutosarEngineeringObject` it makes) -/
def getAutosarEngineeringObject_AutosarEngineeringObject : List RSlot :=
  /- 2490 -/ readEngineeringObject

/-- `getAutosarParameterRef`, `parser/arxml_parser.py:3084-3091` (the `AutosarParameterRef` it makes) -/
def getAutosarParameterRef_AutosarParameterRef : List RSlot :=
  [/- 3089 -/ { field := k!"autosarParameterIRef", path := (.first [k!"AUTOSAR-PARAMETER-IREF"] .nil), item := (.objs [(k!"AUTOSAR-PARAMETER-IREF", k!"getParameterInAtomicSWCTypeInstanceRef_ParameterInAtomicSWCTypeInstanceRef")]) },
   /- 3090 -/ { field := k!"localParameterRef", path := (.first [k!"LOCAL-PARAMETER-REF"] .nil), item := (.prim .ref) }]

/-- `getAutosarVariableRef`, `parser/arxml_parser.py:1056-1064` (the `AutosarVariableRef` it makes) -/
def getAutosarVariableRef_AutosarVariableRef : List RSlot :=
  [/- 1061 -/ { field := k!"timestamp", path := .nil, item := (.attr k!"T" .raw) },
   /- 1061 -/ { field := k!"uuid", path := .nil, item := (.attr k!"UUID" .raw) },
   /- 1062 -/ { field := k!"autosarVariableIRef", path := (.first [k!"AUTOSAR-VARIABLE-IREF"] .nil), item := (.objs [(k!"AUTOSAR-VARIABLE-IREF", k!"getVariableInAtomicSWCTypeInstanceRef_VariableInAtomicSWCTypeInstanceRef")]) },
   /- 1063 -/ { field := k!"localVariableRef", path := (.first [k!"LOCAL-VARIABLE-REF"] .nil), item := (.prim .ref) }]

/-- `getBswModeSenderPolicy`, `parser/arxml_parser.py:1314-1320` (the `BswModeSenderPolicy` it makes) -/
def getBswModeSenderPolicy_BswModeSenderPolicy : List RSlot :=
  [/- 1316 -/ { field := k!"ackRequest", path := (.first [k!"ACK-REQUEST"] .nil), item := (.objs [(k!"ACK-REQUEST", k!"getBswModeSwitchAckRequest_BswModeSwitchAckRequest")]) },
   /- 1317 -/ { field := k!"enhancedModeApi", path := (.first [k!"ENHANCED-MODE-API"] .nil), item := (.prim .boolean) },
   /- 1318 -/ { field := k!"providedModeGroupRef", path := (.first [k!"PROVIDED-MODE-GROUP-REF"] .nil), item := (.prim .ref) },
   /- 1319 -/ { field := k!"queueLength", path := (.first [k!"QUEUE-LENGTH"] .nil), item := (.prim .positive) }]

/-- `getModeSwitchedAckRequest`, `parser/arxml_parser.py:4521-4527` (the `ModeSwitchedAckRequest` it makes); also `getBswModeSwitchAckRequest` -/
def getModeSwitchedAckRequest_ModeSwitchedAckRequest : List RSlot :=
  [/- 4526 -/ { field := k!"timeout", path := (.first [k!"TIMEOUT"] .nil), item := (.prim .time) }]

/-- `readSdgCaption`, `parser/arxml_parser.py:771-774` (the `SdgCaption` it makes); also 4 other methods -/
def readSdgCaption_SdgCaption : List RSlot :=
  [/- 774 -/ { field := k!"short_name", path := (.first [k!"SHORT-NAME"] .nil), item := .name, req := .always }]

/-- `getBufferProperties`, `parser/arxml_parser.py:7204-7211` (the `BufferProperties` it makes) -/
def getBufferProperties_BufferProperties : List RSlot :=
  [/- 7209 -/ { field := k!"headerLength", path := (.first [k!"HEADER-LENGTH"] .nil), item := (.prim .integer) },
   /- 7210 -/ { field := k!"inPlace", path := (.first [k!"IN-PLACE"] .nil), item := (.prim .boolean) }]

/-- `getCanClusterBusOffRecovery`, `parser/arxml_parser.py:6279-6287` (the `CanClusterBusOffRecovery` it makes) -/
def getCanClusterBusOffRecovery_CanClusterBusOffRecovery : List RSlot :=
  [/- 6284 -/ { field := k!"borCounterL1ToL2", path := (.first [k!"BOR-COUNTER-L-1-TO-L-2"] .nil), item := (.prim .positive) },
   /- 6285 -/ { field := k!"borTimeL1", path := (.first [k!"BOR-TIME-L-1"] .nil), item := (.prim .time) },
   /- 6286 -/ { field := k!"borTimeL2", path := (.first [k!"BOR-TIME-L-2"] .nil), item := (.prim .time) }]

/-- `getCanControllerFdConfigurationRequirements`, `parser/arxml_parser.py:7921-7935` (the `CanControllerFdConfigurationRequirements` it makes) -/
def getCanControllerFdConfigurationRequirements_CanControllerFdConfigurationRequirements : List RSlot :=
  [/- 7926 -/ { field := k!"maxNumberOfTimeQuantaPerBit", path := (.first [k!"MAX-NUMBER-OF-TIME-QUANTA-PER-BIT"] .nil), item := (.prim .integer) },
   /- 7927 -/ { field := k!"maxSamplePoint", path := (.first [k!"MAX-SAMPLE-POINT"] .nil), item := (.prim .float) },
   /- 7928 -/ { field := k!"maxSyncJumpWidth", path := (.first [k!"MAX-SYNC-JUMP-WIDTH"] .nil), item := (.prim .float) },
   /- 7929 -/ { field := k!"maxTrcvDelayCompensationOffset", path := (.first [k!"MAX-TRCV-DELAY-COMPENSATION-OFFSET"] .nil), item := (.prim .time) },
   /- 7930 -/ { field := k!"minNumberOfTimeQuantaPerBit", path := (.first [k!"MIN-NUMBER-OF-TIME-QUANTA-PER-BIT"] .nil), item := (.prim .integer) },
   /- 7931 -/ { field := k!"minSamplePoint", path := (.first [k!"MIN-SAMPLE-POINT"] .nil), item := (.prim .float) },
   /- 7932 -/ { field := k!"minSyncJumpWidth", path := (.first [k!"MIN-SYNC-JUMP-WIDTH"] .nil), item := (.prim .float) },
   /- 7933 -/ { field := k!"minTrcvDelayCompensationOffset", path := (.first [k!"MIN-TRCV-DELAY-COMPENSATION-OFFSET"] .nil), item := (.prim .time) },
   /- 7934 -/ { field := k!"txBitRateSwitch", path := (.first [k!"TX-BIT-RATE-SWITCH"] .nil), item := (.prim .boolean) }]

/-- `getCanControllerFdConfiguration`, `parser/arxml_parser.py:7880-7892` (the `CanControllerFdConfiguration` it makes) -/
def getCanControllerFdConfiguration_CanControllerFdConfiguration : List RSlot :=
  [/- 7885 -/ { field := k!"paddingValue", path := (.first [k!"PADDING-VALUE"] .nil), item := (.prim .integer) },
   /- 7886 -/ { field := k!"propSeg", path := (.first [k!"PROP-SEG"] .nil), item := (.prim .integer) },
   /- 7887 -/ { field := k!"sspOffset", path := (.first [k!"SSP-OFFSET"] .nil), item := (.prim .integer) },
   /- 7888 -/ { field := k!"syncJumpWidth", path := (.first [k!"SYNC-JUMP-WIDTH"] .nil), item := (.prim .integer) },
   /- 7889 -/ { field := k!"timeSeg1", path := (.first [k!"TIME-SEG1"] .nil), item := (.prim .integer) },
   /- 7890 -/ { field := k!"timeSeg2", path := (.first [k!"TIME-SEG2"] .nil), item := (.prim .integer) },
   /- 7891 -/ { field := k!"txBitRateSwitch", path := (.first [k!"TX-BIT-RATE-SWITCH"] .nil), item := (.prim .boolean) }]

/-- `getCanControllerXlConfigurationRequirements`, `parser/arxml_parser.py:7954-7975` (the `CanControllerXlConfigurationRequirements` it makes) -/
def getCanControllerXlConfigurationRequirements_CanControllerXlConfigurationRequirements : List RSlot :=
  [/- 7959 -/ { field := k!"errorSignalingEnabled", path := (.first [k!"ERROR-SIGNALING-ENABLED"] .nil), item := (.prim .boolean) },
   /- 7960 -/ { field := k!"maxNumberOfTimeQuantaPerBit", path := (.first [k!"MAX-NUMBER-OF-TIME-QUANTA-PER-BIT"] .nil), item := (.prim .integer) },
   /- 7961 -/ { field := k!"maxPwmL", path := (.first [k!"MAX-PWM-L"] .nil), item := (.prim .integer) },
   /- 7962 -/ { field := k!"maxPwmO", path := (.first [k!"MAX-PWM-O"] .nil), item := (.prim .integer) },
   /- 7963 -/ { field := k!"maxPwmS", path := (.first [k!"MAX-PWM-S"] .nil), item := (.prim .integer) },
   /- 7964 -/ { field := k!"maxSamplePoint", path := (.first [k!"MAX-SAMPLE-POINT"] .nil), item := (.prim .float) },
   /- 7965 -/ { field := k!"maxSyncJumpWidth", path := (.first [k!"MAX-SYNC-JUMP-WIDTH"] .nil), item := (.prim .float) },
   /- 7966 -/ { field := k!"maxTrcvDelayCompensationOffset", path := (.first [k!"MAX-TRCV-DELAY-COMPENSATION-OFFSET"] .nil), item := (.prim .time) },
   /- 7967 -/ { field := k!"minNumberOfTimeQuantaPerBit", path := (.first [k!"MIN-NUMBER-OF-TIME-QUANTA-PER-BIT"] .nil), item := (.prim .integer) },
   /- 7968 -/ { field := k!"minPwmL", path := (.first [k!"MIN-PWM-L"] .nil), item := (.prim .integer) },
   /- 7969 -/ { field := k!"minPwmO", path := (.first [k!"MIN-PWM-O"] .nil), item := (.prim .integer) },
   /- 7970 -/ { field := k!"minPwmS", path := (.first [k!"MIN-PWM-S"] .nil), item := (.prim .integer) },
   /- 7971 -/ { field := k!"minSamplePoint", path := (.first [k!"MIN-SAMPLE-POINT"] .nil), item := (.prim .float) },
   /- 7972 -/ { field := k!"minSyncJumpWidth", path := (.first [k!"MIN-SYNC-JUMP-WIDTH"] .nil), item := (.prim .float) },
   /- 7973 -/ { field := k!"minTrcvDelayCompensationOffset", path := (.first [k!"MIN-TRCV-DELAY-COMPENSATION-OFFSET"] .nil), item := (.prim .time) },
   /- 7974 -/ { field := k!"trcvPwmModeEnabled", path := (.first [k!"TRCV-PWM-MODE-ENABLED"] .nil), item := (.prim .boolean) }]

/-- `getCanControllerXlConfiguration`, `parser/arxml_parser.py:7937-7952` (the `CanControllerXlConfiguration` it makes) -/
def getCanControllerXlConfiguration_CanControllerXlConfiguration : List RSlot :=
  [/- 7942 -/ { field := k!"errorSignalingEnabled", path := (.first [k!"ERROR-SIGNALING-ENABLED"] .nil), item := (.prim .boolean) },
   /- 7943 -/ { field := k!"propSeg", path := (.first [k!"PROP-SEG"] .nil), item := (.prim .integer) },
   /- 7944 -/ { field := k!"pwmL", path := (.first [k!"PWM-L"] .nil), item := (.prim .integer) },
   /- 7945 -/ { field := k!"pwmO", path := (.first [k!"PWM-O"] .nil), item := (.prim .integer) },
   /- 7946 -/ { field := k!"pwmS", path := (.first [k!"PWM-S"] .nil), item := (.prim .integer) },
   /- 7947 -/ { field := k!"sspOffset", path := (.first [k!"SSP-OFFSET"] .nil), item := (.prim .integer) },
   /- 7948 -/ { field := k!"syncJumpWidth", path := (.first [k!"SYNC-JUMP-WIDTH"] .nil), item := (.prim .integer) },
   /- 7949 -/ { field := k!"timeSeg1", path := (.first [k!"TIME-SEG1"] .nil), item := (.prim .integer) },
   /- 7950 -/ { field := k!"timeSeg2", path := (.first [k!"TIME-SEG2"] .nil), item := (.prim .integer) },
   /- 7951 -/ { field := k!"trcvPwmModeEnabled", path := (.first [k!"TRCV-PWM-MODE-ENABLED"] .nil), item := (.prim .boolean) }]

/-- `getCanNmClusterCoupling`, `parser/arxml_parser.py:6832-6838` (the `CanNmClusterCoupling` it makes) -/
def getCanNmClusterCoupling_CanNmClusterCoupling : List RSlot :=
  [/- 6835 -/ { field := k!"coupledClusterRefs", path := (.all k!"COUPLED-CLUSTER-REFS" (.all k!"COUPLED-CLUSTER-REF" .nil)), item := (.prim .ref) },
   /- 6836 -/ { field := k!"nmBusloadReductionEnabled", path := (.first [k!"NM-BUSLOAD-REDUCTION-ENABLED"] .nil), item := (.prim .boolean) },
   /- 6837 -/ { field := k!"nmImmediateRestartEnabled", path := (.first [k!"NM-IMMEDIATE-RESTART-ENABLED"] .nil), item := (.prim .boolean) }]

/-- `getCaption`, `parser/arxml_parser.py:924-931` (the `Caption` it makes) -/
def getCaption_Caption : List RSlot :=
  [/- 928 -/ { field := k!"short_name", path := (.first [k!"SHORT-NAME"] .nil), item := .name, req := .always }] ++
  /- 929 -/ readMultilanguageReferrable ++
  [/- 930 -/ { field := k!"desc", path := (.first [k!"DESC"] .nil), item := (.objs [(k!"DESC", k!"getMultiLanguageOverviewParagraph_MultiLanguageOverviewParagraph")]) }]

/-- `getChildElementJ1939NodeName`, `parser/arxml_parser.py:735-749` (the `J1939NodeName` it makes) -/
def getChildElementJ1939NodeName_J1939NodeName : List RSlot :=
  [/- 740 -/ { field := k!"arbitraryAddressCapable", path := (.first [k!"ARBITRARY-ADDRESS-CAPABLE"] .nil), item := (.prim .boolean) },
   /- 741 -/ { field := k!"ecuInstance", path := (.first [k!"ECU-INSTANCE"] .nil), item := (.prim .integer) },
   /- 742 -/ { field := k!"function", path := (.first [k!"FUNCTION"] .nil), item := (.prim .integer) },
   /- 743 -/ { field := k!"functionInstance", path := (.first [k!"FUNCTION-INSTANCE"] .nil), item := (.prim .integer) },
   /- 744 -/ { field := k!"identitiyNumber", path := (.first [k!"IDENTITIY-NUMBER"] .nil), item := (.prim .integer) },
   /- 745 -/ { field := k!"industryGroup", path := (.first [k!"INDUSTRY-GROUP"] .nil), item := (.prim .integer) },
   /- 746 -/ { field := k!"manufacturerCode", path := (.first [k!"MANUFACTURER-CODE"] .nil), item := (.prim .integer) },
   /- 747 -/ { field := k!"vehicleSystem", path := (.first [k!"VEHICLE-SYSTEM"] .nil), item := (.prim .integer) },
   /- 748 -/ { field := k!"vehicleSystemInstance", path := (.first [k!"VEHICLE-SYSTEM-INSTANCE"] .nil), item := (.prim .integer) }]

/-- `getChildElementRxIdentifierRange`, `parser/arxml_parser.py:726-733` (the `RxIdentifierRange` it makes) -/
def getChildElementRxIdentifierRange_RxIdentifierRange : List RSlot :=
  [/- 731 -/ { field := k!"lowerCanId", path := (.first [k!"LOWER-CAN-ID"] .nil), item := (.prim .numerical) },
   /- 732 -/ { field := k!"upperCanId", path := (.first [k!"UPPER-CAN-ID"] .nil), item := (.prim .numerical) }]

/-- `readPPortComSpec`, `parser/arxml_parser.py:4498-4499`; also 6 other methods -/
def readPPortComSpec : List RSlot :=
  [/- 4499 -/ { field := k!"timestamp", path := .nil, item := (.attr k!"T" .raw) },
   /- 4499 -/ { field := k!"uuid", path := .nil, item := (.attr k!"UUID" .raw) }]

/-- `readTransformationComSpecPropss`, `parser/arxml_parser.py:4484-4496` -/
def readTransformationComSpecPropss_ClientComSpec : List RSlot :=
  [/- 4490 -/ { field := k!"transformationComSpecProps", path := (.all k!"TRANSFORMATION-COM-SPEC-PROPSS" (.all 0 .nil)), item := (.objs [(k!"END-TO-END-TRANSFORMATION-COM-SPEC-PROPS", k!"readTransformationComSpecPropss_EndToEndTransformationComSpecProps"), (k!"USER-DEFINED-TRANSFORMATION-COM-SPEC-PROPS", k!"getTransformationComSpecProps_UserDefinedTransformationComSpecProps")]) },
   /- 4496 -/ { field := 0, path := (.all k!"TRANSFORMATION-COM-SPEC-PROPSS" (.all 0 .nil)), item := (.guard [k!"END-TO-END-TRANSFORMATION-COM-SPEC-PROPS", k!"USER-DEFINED-TRANSFORMATION-COM-SPEC-PROPS"] .unsupported) }]

/-- `getClientComSpec`, `parser/arxml_parser.py:4259-4265` (the `ClientComSpec` it makes) -/
def getClientComSpec_ClientComSpec : List RSlot :=
  /- 4261 -/ readPPortComSpec ++
  [/- 4262 -/ { field := k!"endToEndCallResponseTimeout", path := (.first [k!"END-TO-END-CALL-RESPONSE-TIMEOUT"] .nil), item := (.prim .time) },
   /- 4263 -/ { field := k!"operationRef", path := (.first [k!"OPERATION-REF"] .nil), item := (.prim .ref) }] ++
  /- 4264 -/ readTransformationComSpecPropss_ClientComSpec

/-- `getClientComSpec`, `parser/arxml_parser.py:4259-4265` (the `ClientComSpec` it makes); with what ports check, `Components/__init__.py:312-380` -/
def getClientComSpec_ClientComSpec_port : List RSlot :=
  aim k!"operationRef" t!"CLIENT-SERVER-OPERATION" false (
  /- 4261 -/ readPPortComSpec ++
  [/- 4262 -/ { field := k!"endToEndCallResponseTimeout", path := (.first [k!"END-TO-END-CALL-RESPONSE-TIMEOUT"] .nil), item := (.prim .time) },
   /- 4263 -/ { field := k!"operationRef", path := (.first [k!"OPERATION-REF"] .nil), item := (.prim .ref) }] ++
  /- 4264 -/ readTransformationComSpecPropss_ClientComSpec)

/-- `getComponentInSystemInstanceRef`, `parser/arxml_parser.py:1046-1054` (the `ComponentInSystemInstanceRef` it makes) -/
def getComponentInSystemInstanceRef_ComponentInSystemInstanceRef : List RSlot :=
  [/- 1050 -/ { field := k!"timestamp", path := .nil, item := (.attr k!"T" .raw) },
   /- 1050 -/ { field := k!"uuid", path := .nil, item := (.attr k!"UUID" .raw) },
   /- 1051 -/ { field := k!"baseRef", path := (.first [k!"BASE-REF"] .nil), item := (.prim .ref) },
   /- 1052 -/ { field := k!"contextCompositionRef", path := (.first [k!"CONTEXT-COMPOSITION-REF"] .nil), item := (.prim .ref) },
   /- 1053 -/ { field := k!"targetComponentRef", path := (.first [k!"TARGET-COMPONENT-REF"] .nil), item := (.prim .ref) }]

/-- `getCompositeNetworkRepresentation`, `parser/arxml_parser.py:4145-4150` (the `CompositeNetworkRepresentation` it makes) -/
def getCompositeNetworkRepresentation_CompositeNetworkRepresentation : List RSlot :=
  [/- 4148 -/ { field := k!"leafElementIRef", path := (.first [k!"LEAF-ELEMENT-IREF"] .nil), item := (.objs [(k!"LEAF-ELEMENT-IREF", k!"getApplicationCompositeElementInPortInterfaceInstanceRef_ApplicationCompositeElementInPortInterfaceInstanceRef")]) },
   /- 4149 -/ { field := k!"networkRepresentation", path := (.first [k!"NETWORK-REPRESENTATION"] .nil), item := (.objs [(k!"NETWORK-REPRESENTATION", k!"getSwDataDefProps_SwDataDefProps")]) }]

/-- `getCompositeRuleBasedValueSpecification`, `parser/arxml_parser.py:5332-5341` (the `CompositeRuleBasedValueSpecification` it makes) -/
def getCompositeRuleBasedValueSpecification_CompositeRuleBasedValueSpecification : List RSlot :=
  /- 5334 -/ readValueSpecification ++
  [/- 5335 -/ { field := k!"rule", path := (.first [k!"RULE"] .nil), item := (.prim .lit) },
   /- 5337 -/ { field := k!"arguments", path := (.all k!"ARGUMENTS" (.all 0 .nil)), item := (.objs [(k!"APPLICATION-VALUE-SPECIFICATION", k!"getApplicationValueSpecification_ApplicationValueSpecification"), (k!"APPLICATION-RULE-BASED-VALUE-SPECIFICATION", k!"getApplicationRuleBasedValueSpecification_ApplicationRuleBasedValueSpecification"), (k!"COMPOSITE-RULE-BASED-VALUE-SPECIFICATION", k!"getCompositeRuleBasedValueSpecification_CompositeRuleBasedValueSpecification"), (k!"RECORD-VALUE-SPECIFICATION", k!"getRecordValueSpecification_RecordValueSpecification"), (k!"NUMERICAL-VALUE-SPECIFICATION", k!"getNumericalValueSpecification_NumericalValueSpecification"), (k!"ARRAY-VALUE-SPECIFICATION", k!"getArrayValueSpecification_ArrayValueSpecification"), (k!"TEXT-VALUE-SPECIFICATION", k!"getTextValueSpecification_TextValueSpecification"), (k!"CONSTANT-REFERENCE", k!"getConstantReference_ConstantReference")]) },
   /- 5392 -/ { field := 0, path := (.all k!"ARGUMENTS" (.all 0 .nil)), item := (.guard [k!"APPLICATION-VALUE-SPECIFICATION", k!"APPLICATION-RULE-BASED-VALUE-SPECIFICATION", k!"COMPOSITE-RULE-BASED-VALUE-SPECIFICATION", k!"RECORD-VALUE-SPECIFICATION", k!"NUMERICAL-VALUE-SPECIFICATION", k!"ARRAY-VALUE-SPECIFICATION", k!"TEXT-VALUE-SPECIFICATION", k!"CONSTANT-REFERENCE"] .unbound) },
   /- 5339 -/ { field := k!"compoundPrimitiveArguments", path := (.all k!"COMPOUND-PRIMITIVE-ARGUMENTS" (.all 0 .nil)), item := (.objs [(k!"APPLICATION-VALUE-SPECIFICATION", k!"getApplicationValueSpecification_ApplicationValueSpecification"), (k!"APPLICATION-RULE-BASED-VALUE-SPECIFICATION", k!"getApplicationRuleBasedValueSpecification_ApplicationRuleBasedValueSpecification"), (k!"COMPOSITE-RULE-BASED-VALUE-SPECIFICATION", k!"getCompositeRuleBasedValueSpecification_CompositeRuleBasedValueSpecification"), (k!"RECORD-VALUE-SPECIFICATION", k!"getRecordValueSpecification_RecordValueSpecification"), (k!"NUMERICAL-VALUE-SPECIFICATION", k!"getNumericalValueSpecification_NumericalValueSpecification"), (k!"ARRAY-VALUE-SPECIFICATION", k!"getArrayValueSpecification_ArrayValueSpecification"), (k!"TEXT-VALUE-SPECIFICATION", k!"getTextValueSpecification_TextValueSpecification"), (k!"CONSTANT-REFERENCE", k!"getConstantReference_ConstantReference")]) },
   /- 5392 -/ { field := 0, path := (.all k!"COMPOUND-PRIMITIVE-ARGUMENTS" (.all 0 .nil)), item := (.guard [k!"APPLICATION-VALUE-SPECIFICATION", k!"APPLICATION-RULE-BASED-VALUE-SPECIFICATION", k!"COMPOSITE-RULE-BASED-VALUE-SPECIFICATION", k!"RECORD-VALUE-SPECIFICATION", k!"NUMERICAL-VALUE-SPECIFICATION", k!"ARRAY-VALUE-SPECIFICATION", k!"TEXT-VALUE-SPECIFICATION", k!"CONSTANT-REFERENCE"] .unbound) },
   /- 5340 -/ { field := k!"maxSizeToFill", path := (.first [k!"MAX-SIZE-TO-FILL"] .nil), item := (.prim .integer) }]

/-- `getCompuConstContent`, `parser/arxml_parser.py:5119-5135` (the `CompuConstFormulaContent` it makes) -/
def getCompuConstContent_CompuConstFormulaContent : List RSlot :=
  [/- 5126 -/ { field := k!"vf", path := .nil, item := (.prim .lit) }]

/-- `getCompuConstContent`, `parser/arxml_parser.py:5119-5135` (the `CompuConstNumericContent` it makes) -/
def getCompuConstContent_CompuConstNumericContent : List RSlot :=
  [/- 5129 -/ { field := k!"v", path := .nil, item := (.prim .numerical) }]

/-- `getCompuConstContent`, `parser/arxml_parser.py:5119-5135` (the `CompuConstTextContent` it makes) -/
def getCompuConstContent_CompuConstTextContent : List RSlot :=
  [/- 5132 -/ { field := k!"vt", path := .nil, item := (.prim .lit) }]

/-- `getCompuConst`, `parser/arxml_parser.py:5137-5144` (the `CompuConst` it makes) -/
def getCompuConst_CompuConst : List RSlot :=
  [/- 5142 -/ { field := k!"timestamp", path := .nil, item := (.attr k!"T" .raw) },
   /- 5142 -/ { field := k!"uuid", path := .nil, item := (.attr k!"UUID" .raw) },
   /- 5143 -/ { field := k!"compuConstContentType", path := (.first [0] .nil), item := (.objs [(k!"VF", k!"getCompuConstContent_CompuConstFormulaContent"), (k!"V", k!"getCompuConstContent_CompuConstNumericContent"), (k!"VT", k!"getCompuConstContent_CompuConstTextContent")]) },
   /- 5134 -/ { field := 0, path := (.first [0] .nil), item := (.guard [k!"VF", k!"V", k!"VT"] .unsupported) }]

/-- `readCompuConst`, `parser/arxml_parser.py:5146-5155` (the `CompuConstTextContent` it makes) -/
def readCompuConst_CompuConstTextContent : List RSlot :=
  [/- 5154 -/ { field := k!"vt", path := .nil, item := (.prim .litPlain) }]

/-- `readCompuConst`, `parser/arxml_parser.py:5146-5155` (the `CompuConst` it makes) -/
def readCompuConst_CompuConst : List RSlot :=
  /- 5152 -/ part k!"compuConstContentType" .nil readCompuConst_CompuConstTextContent

/-- `readCompuConst`, `parser/arxml_parser.py:5146-5155` (the `CompuScaleConstantContents` it makes) -/
def readCompuConst_CompuScaleConstantContents : List RSlot :=
  /- 5151 -/ part k!"compuConst" .nil readCompuConst_CompuConst

/-- `readCompuConst`, `parser/arxml_parser.py:5146-5155` -/
def readCompuConst : List RSlot :=
  /- 5155 -/ part k!"compuScaleContents" (.lack (.first [k!"COMPU-RATIONAL-COEFFS"] .nil) (.first [k!"COMPU-CONST", k!"VT"] .nil)) readCompuConst_CompuScaleConstantContents

/-- `readCompuRationCoeffs`, `parser/arxml_parser.py:5162-5172` (the `CompuScaleRationalFormula` it makes) -/
def readCompuRationCoeffs_CompuScaleRationalFormula : List RSlot :=
  [/- 5167 -/ { field := k!"compuRationalCoeffs", path := .nil, item := (.objs [(k!"COMPU-RATIONAL-COEFFS", k!"readCompuRationCoeffs_CompuRationalCoeffs")]) }]

/-- `readCompuRationCoeffs`, `parser/arxml_parser.py:5162-5172` -/
def readCompuRationCoeffs : List RSlot :=
  /- 5172 -/ part k!"compuScaleContents" (.first [k!"COMPU-RATIONAL-COEFFS"] .nil) readCompuRationCoeffs_CompuScaleRationalFormula

/-- `readCompuScaleContents`, `parser/arxml_parser.py:5174-5176` -/
def readCompuScaleContents : List RSlot :=
  /- 5175 -/ readCompuConst ++
  /- 5176 -/ readCompuRationCoeffs

/-- `readCompuScale`, `parser/arxml_parser.py:5178-5186` -/
def readCompuScale : List RSlot :=
  [/- 5179 -/ { field := k!"timestamp", path := .nil, item := (.attr k!"T" .raw) },
   /- 5179 -/ { field := k!"uuid", path := .nil, item := (.attr k!"UUID" .raw) },
   /- 5180 -/ { field := k!"shortLabel", path := (.first [k!"SHORT-LABEL"] .nil), item := (.prim .lit) },
   /- 5181 -/ { field := k!"symbol", path := (.first [k!"SYMBOL"] .nil), item := (.prim .lit) },
   /- 5182 -/ { field := k!"desc", path := (.first [k!"DESC"] .nil), item := (.objs [(k!"DESC", k!"getMultiLanguageOverviewParagraph_MultiLanguageOverviewParagraph")]) },
   /- 5183 -/ { field := k!"mask", path := (.first [k!"MASK"] .nil), item := (.prim .positive) },
   /- 5184 -/ { field := k!"lowerLimit", path := (.first [k!"LOWER-LIMIT"] .nil), item := (.prim .limit) },
   /- 5185 -/ { field := k!"upperLimit", path := (.first [k!"UPPER-LIMIT"] .nil), item := (.prim .limit) }] ++
  /- 5186 -/ readCompuScaleContents

/-- `getCompuScales`, `parser/arxml_parser.py:5188-5197` (the `CompuScale` it makes) -/
def getCompuScales_CompuScale : List RSlot :=
  /- 5195 -/ readCompuScale

/-- `getCompuScales`, `parser/arxml_parser.py:5188-5197` (the `CompuScales` it makes) -/
def getCompuScales_CompuScales : List RSlot :=
  [/- 5196 -/ { field := k!"compuScales", path := (.all k!"COMPU-SCALE" .nil), item := (.objs [(k!"COMPU-SCALE", k!"getCompuScales_CompuScale")]) }]

/-- `getCompu`, `parser/arxml_parser.py:5199-5207` (the `Compu` it makes) -/
def getCompu_Compu : List RSlot :=
  [/- 5204 -/ { field := k!"timestamp", path := .nil, item := (.attr k!"T" .raw) },
   /- 5204 -/ { field := k!"uuid", path := .nil, item := (.attr k!"UUID" .raw) },
   /- 5205 -/ { field := k!"compuContent", path := (.first [k!"COMPU-SCALES"] .nil), item := (.objs [(k!"COMPU-SCALES", k!"getCompuScales_CompuScales")]) },
   /- 5206 -/ { field := k!"compuDefaultValue", path := (.first [k!"COMPU-DEFAULT-VALUE"] .nil), item := (.objs [(k!"COMPU-DEFAULT-VALUE", k!"getCompuConst_CompuConst")]) }]

/-- `getConstantReference`, `parser/arxml_parser.py:5367-5372` (the `ConstantReference` it makes) -/
def getConstantReference_ConstantReference : List RSlot :=
  /- 5370 -/ readValueSpecification ++
  [/- 5371 -/ { field := k!"constantRef", path := (.first [k!"CONSTANT-REF"] .nil), item := (.prim .ref) }]

/-- `readCouplingPortDetailsCouplingPortStructuralElements`, `parser/arxml_parser.py:8023-8033` -/
def readCouplingPortDetailsCouplingPortStructuralElements : List RSlot :=
  [/- 8027 -/ { field := k!"couplingPortStructuralElements", path := (.all k!"COUPLING-PORT-STRUCTURAL-ELEMENTS" (.all 0 .nil)), item := (.objs [(k!"COUPLING-PORT-FIFO", k!"readCouplingPortDetailsCouplingPortStructuralElements_CouplingPortFifo"), (k!"COUPLING-PORT-SCHEDULER", k!"readCouplingPortDetailsCouplingPortStructuralElements_CouplingPortScheduler")]), named := true, fresh := true },
   /- 8033 -/ { field := 0, path := (.all k!"COUPLING-PORT-STRUCTURAL-ELEMENTS" (.all 0 .nil)), item := (.guard [k!"COUPLING-PORT-FIFO", k!"COUPLING-PORT-SCHEDULER"] .unsupported) }]

/-- `readCouplingPortDetailsEthernetPriorityRegenerations`, `parser/arxml_parser.py:8039-8046` -/
def readCouplingPortDetailsEthernetPriorityRegenerations : List RSlot :=
  [/- 8043 -/ { field := k!"ethernetPriorityRegenerations", path := (.all k!"ETHERNET-PRIORITY-REGENERATIONS" (.all k!"ETHERNET-PRIORITY-REGENERATION" .nil)), item := (.objs [(k!"ETHERNET-PRIORITY-REGENERATION", k!"readCouplingPortDetailsEthernetPriorityRegenerations_EthernetPriorityRegeneration")]), named := true, fresh := true },
   /- 8046 -/ { field := 0, path := (.all k!"ETHERNET-PRIORITY-REGENERATIONS" (.all 0 .nil)), item := (.guard [k!"ETHERNET-PRIORITY-REGENERATION"] .unsupported) }]

/-- `getCouplingPortDetails`, `parser/arxml_parser.py:8048-8056` (the `CouplingPortDetails` it makes) -/
def getCouplingPortDetails_CouplingPortDetails : List RSlot :=
  /- 8053 -/ readCouplingPortDetailsCouplingPortStructuralElements ++
  /- 8054 -/ readCouplingPortDetailsEthernetPriorityRegenerations ++
  [/- 8055 -/ { field := k!"lastEgressSchedulerRef", path := (.first [k!"LAST-EGRESS-SCHEDULER-REF"] .nil), item := (.prim .ref) }]

/-- `getCyclicTiming`, `parser/arxml_parser.py:8639-8646` (the `CyclicTiming` it makes) -/
def getCyclicTiming_CyclicTiming : List RSlot :=
  [/- 8644 -/ { field := k!"timeOffset", path := (.first [k!"TIME-OFFSET"] .nil), item := (.objs [(k!"TIME-OFFSET", k!"getTimeRangeType_TimeRangeType")]) },
   /- 8645 -/ { field := k!"timePeriod", path := (.first [k!"TIME-PERIOD"] .nil), item := (.objs [(k!"TIME-PERIOD", k!"getTimeRangeType_TimeRangeType")]) }]

/-- `getDataFilter`, `parser/arxml_parser.py:8610-8619` (the `DataFilter` it makes) -/
def getDataFilter_DataFilter : List RSlot :=
  [/- 8615 -/ { field := k!"dataFilterType", path := (.first [k!"DATA-FILTER-TYPE"] .nil), item := (.prim .lit) },
   /- 8616 -/ { field := k!"mask", path := (.first [k!"MASK"] .nil), item := (.prim .integer) },
   /- 8617 -/ { field := k!"x", path := (.first [k!"X"] .nil), item := (.prim .integer) }]

/-- `getDataPrototypeMappings`, `parser/arxml_parser.py:8925-8938` (the `DataPrototypeMapping` it makes) -/
def getDataPrototypeMappings_DataPrototypeMapping : List RSlot :=
  [/- 8929 -/ { field := k!"firstDataPrototypeRef", path := (.first [k!"FIRST-DATA-PROTOTYPE-REF"] .nil), item := (.prim .ref) },
   /- 8930 -/ { field := k!"firstToSecondDataTransformationRef", path := (.first [k!"FIRST-TO-SECOND-DATA-TRANSFORMATION-REF"] .nil), item := (.prim .ref) },
   /- 8931 -/ { field := k!"secondDataPrototypeRef", path := (.first [k!"SECOND-DATA-PROTOTYPE-REF"] .nil), item := (.prim .ref) },
   /- 8932 -/ { field := k!"secondToFirstDataTransformationRef", path := (.first [k!"SECOND-TO-FIRST-DATA-TRANSFORMATION-REF"] .nil), item := (.prim .ref) },
   /- 8934 -/ { field := k!"subElementMappings", path := (.all k!"SUB-ELEMENT-MAPPINGS" (.all k!"SUB-ELEMENT-MAPPING" .nil)), item := (.objs [(k!"SUB-ELEMENT-MAPPING", k!"getSubElementMapping_SubElementMapping")]) },
   /- 8936 -/ { field := k!"textTableMappings", path := (.all k!"TEXT-TABLE-MAPPINGS" (.all k!"TEXT-TABLE-MAPPING" .nil)), item := (.objs [(k!"TEXT-TABLE-MAPPING", k!"getTextTableMapping_TextTableMapping")]) }]

/-- `getDefItem`, `parser/arxml_parser.py:3722-3728` (the `DefItem` it makes) -/
def getDefItem_DefItem : List RSlot :=
  [/- 3724 -/ { field := k!"timestamp", path := .nil, item := (.attr k!"T" .raw) },
   /- 3724 -/ { field := k!"uuid", path := .nil, item := (.attr k!"UUID" .raw) },
   /- 3725 -/ { field := k!"def_doc", path := (.first [k!"DEF"] .nil), item := (.objs [(k!"DEF", k!"getDocumentationBlock_DocumentationBlock")]) },
   /- 3727 -/ { field := k!"helpEntry", path := .nil, item := (.attr k!"HELPENTRY" .lit) }]

/-- `getDefList`, `parser/arxml_parser.py:3730-3738` (the `DefList` it makes) -/
def getDefList_DefList : List RSlot :=
  [/- 3735 -/ { field := k!"timestamp", path := .nil, item := (.attr k!"T" .raw) },
   /- 3735 -/ { field := k!"uuid", path := .nil, item := (.attr k!"UUID" .raw) },
   /- 3737 -/ { field := k!"defItems", path := (.all k!"DEF-ITEM" .nil), item := (.objs [(k!"DEF-ITEM", k!"getDefItem_DefItem")]) }]

/-- `getDoIpEntity`, `parser/arxml_parser.py:5942-5948` (the `DoIpEntity` it makes) -/
def getDoIpEntity_DoIpEntity : List RSlot :=
  [/- 5947 -/ { field := k!"doIpEntityRole", path := (.first [k!"DO-IP-ENTITY-ROLE"] .nil), item := (.prim .lit) }]

/-- `readDocumentationBlock`, `parser/arxml_parser.py:3846-3861` -/
def readDocumentationBlock : List RSlot :=
  [/- 3847 -/ { field := k!"timestamp", path := .nil, item := (.attr k!"T" .raw) },
   /- 3847 -/ { field := k!"uuid", path := .nil, item := (.attr k!"UUID" .raw) },
   /- 3849 -/ { field := k!"ps", path := (.all k!"P" .nil), item := (.objs [(k!"P", k!"getMultiLanguageParagraphs_MultiLanguageParagraph")]) },
   /- 3851 -/ { field := k!"lists", path := (.all k!"LIST" .nil), item := (.objs [(k!"LIST", k!"getListElements_ARList")]) },
   /- 3853 -/ { field := k!"figures", path := (.all k!"FIGURE" .nil), item := (.objs [(k!"FIGURE", k!"getMlFigures_MlFigure")]) },
   /- 3854 -/ { field := k!"defList", path := (.first [k!"DEF-LIST"] .nil), item := (.objs [(k!"DEF-LIST", k!"getDefList_DefList")]) },
   /- 3855 -/ { field := k!"formula", path := (.first [k!"FORMULA"] .nil), item := (.objs [(k!"FORMULA", k!"getMlFormula_MlFormula")]) },
   /- 3856 -/ { field := k!"labeledList", path := (.first [k!"LABELED-LIST"] .nil), item := (.objs [(k!"LABELED-LIST", k!"getLabeledList_LabeledList")]) },
   /- 3857 -/ { field := k!"msrQueryP2", path := (.first [k!"MSR-QUERY-P2"] .nil), item := (.objs [(k!"MSR-QUERY-P2", k!"getMsrQueryP2_MsrQueryP2")]) },
   /- 3858 -/ { field := k!"note", path := (.first [k!"NOTE"] .nil), item := (.objs [(k!"NOTE", k!"getNote_Note")]) },
   /- 3859 -/ { field := k!"structuredReq", path := (.first [k!"STRUCTURED-REQ"] .nil), item := (.objs [(k!"STRUCTURED-REQ", k!"getStructuredReq_StructuredReq")]) },
   /- 3860 -/ { field := k!"trace", path := (.first [k!"TRACE"] .nil), item := (.objs [(k!"TRACE", k!"getTraceableText_TraceableText")]) },
   /- 3861 -/ { field := k!"verbatim", path := (.first [k!"VERBATIM"] .nil), item := (.objs [(k!"VERBATIM", k!"getMultiLanguageVerbatim_MultiLanguageVerbatim")]) }]

/-- `getDocumentationBlock`, `parser/arxml_parser.py:3863-3869` (the `DocumentationBlock` it makes); also `getDocumentationBlockList` -/
def getDocumentationBlock_DocumentationBlock : List RSlot :=
  /- 3868 -/ readDocumentationBlock

/-- `getEcucDestinationUriRefs`, `parser/arxml_parser.py:7404-7418` (the `EcucDestinationUriDefRefType` it makes) -/
def getEcucDestinationUriRefs_EcucDestinationUriDefRefType : List RSlot :=
  [/- 7411 -/ { field := k!"base", path := .nil, item := (.attr k!"BASE" .raw) },
   /- 7413 -/ { field := k!"dest", path := .nil, item := (.attr k!"DEST" .raw) },
   /- 7414 -/ { field := k!"value", path := .nil, item := (.prim .raw) }]

/-- `readEcucParameterValue`, `parser/arxml_parser.py:8339-8343`; also `readEcucAbstractReferenceValue` -/
def readEcucParameterValue : List RSlot :=
  [/- 8340 -/ { field := k!"definitionRef", path := (.first [k!"DEFINITION-REF"] .nil), item := (.prim .ref) },
   /- 3893 -/ { field := 0, path := (.all k!"ANNOTATIONS" (.all 0 .nil)), item := (.guard [k!"ANNOTATION"] .unsupported) },
   /- 8342 -/ { field := k!"annotations", path := (.all k!"ANNOTATIONS" (.all k!"ANNOTATION" .nil)), item := (.objs [(k!"ANNOTATION", k!"getAnnotations_Annotation")]) },
   /- 8343 -/ { field := k!"index", path := (.first [k!"INDEX"] .nil), item := (.prim .positive) }]

/-- `getEcucInstanceReferenceValue`, `parser/arxml_parser.py:8390-8394` (the `EcucInstanceReferenceValue` it makes) -/
def getEcucInstanceReferenceValue_EcucInstanceReferenceValue : List RSlot :=
  /- 8392 -/ readEcucParameterValue ++
  [/- 8393 -/ { field := k!"valueRef", path := (.first [k!"VALUE-IREF"] .nil), item := (.objs [(k!"VALUE-IREF", k!"getAnyInstanceRef_AnyInstanceRef")]) }]

/-- `readEcucAbstractConfigurationClass`, `parser/arxml_parser.py:7370-7373` -/
def readEcucAbstractConfigurationClass : List RSlot :=
  [/- 7371 -/ { field := k!"timestamp", path := .nil, item := (.attr k!"T" .raw) },
   /- 7371 -/ { field := k!"uuid", path := .nil, item := (.attr k!"UUID" .raw) },
   /- 7372 -/ { field := k!"configClass", path := (.first [k!"CONFIG-CLASS"] .nil), item := (.prim .lit) },
   /- 7373 -/ { field := k!"configVariant", path := (.first [k!"CONFIG-VARIANT"] .nil), item := (.prim .lit) }]

/-- `readEcucValueConfigurationClass`, `parser/arxml_parser.py:7520-7521`; also `readEcucMultiplicityConfigurationClass` -/
def readEcucValueConfigurationClass : List RSlot :=
  /- 7521 -/ readEcucAbstractConfigurationClass

/-- `getEcucValueConfigurationClasses`, `parser/arxml_parser.py:7523-7533` (the `EcucValueConfigurationClass` it makes); also `getEcucMultiplicityConfigurationClasses` -/
def getEcucValueConfigurationClasses_EcucValueConfigurationClass : List RSlot :=
  /- 7529 -/ readEcucValueConfigurationClass

/-- `getEcucNumericalParamValue`, `parser/arxml_parser.py:8351-8355` (the `EcucNumericalParamValue` it makes) -/
def getEcucNumericalParamValue_EcucNumericalParamValue : List RSlot :=
  /- 8353 -/ readEcucParameterValue ++
  [/- 8354 -/ { field := k!"value", path := (.first [k!"VALUE"] .nil), item := (.prim .numerical) }]

/-- `getEcucReferenceValue`, `parser/arxml_parser.py:8373-8377` (the `EcucReferenceValue` it makes) -/
def getEcucReferenceValue_EcucReferenceValue : List RSlot :=
  /- 8375 -/ readEcucParameterValue ++
  [/- 8376 -/ { field := k!"valueRef", path := (.first [k!"VALUE-REF"] .nil), item := (.prim .ref) }]

/-- `getEcucTextualParamValue`, `parser/arxml_parser.py:8345-8349` (the `EcucTextualParamValue` it makes) -/
def getEcucTextualParamValue_EcucTextualParamValue : List RSlot :=
  /- 8347 -/ readEcucParameterValue ++
  [/- 8348 -/ { field := k!"value", path := (.first [k!"VALUE"] .nil), item := (.prim .lit) }]

/-- `readEndToEndDescriptionDataIds`, `parser/arxml_parser.py:5475-5479` -/
def readEndToEndDescriptionDataIds : List RSlot :=
  [/- 5479 -/ { field := k!"dataIds", path := (.first [k!"DATA-IDS"] (.all k!"DATA-ID" .nil)), item := (.prim .numericals) }]

/-- `getEndToEndDescription`, `parser/arxml_parser.py:5481-5494` (the `EndToEndDescription` it makes) -/
def getEndToEndDescription_EndToEndDescription : List RSlot :=
  [/- 5486 -/ { field := k!"timestamp", path := .nil, item := (.attr k!"T" .raw) },
   /- 5486 -/ { field := k!"uuid", path := .nil, item := (.attr k!"UUID" .raw) },
   /- 5487 -/ { field := k!"category", path := (.first [k!"CATEGORY"] .nil), item := (.prim .lit) }] ++
  /- 5488 -/ readEndToEndDescriptionDataIds ++
  [/- 5489 -/ { field := k!"dataIdMode", path := (.first [k!"DATA-ID-MODE"] .nil), item := (.prim .positive) },
   /- 5490 -/ { field := k!"dataLength", path := (.first [k!"DATA-LENGTH"] .nil), item := (.prim .positive) },
   /- 5491 -/ { field := k!"maxDeltaCounterInit", path := (.first [k!"MAX-DELTA-COUNTER-INIT"] .nil), item := (.prim .positive) },
   /- 5492 -/ { field := k!"crcOffset", path := (.first [k!"CRC-OFFSET"] .nil), item := (.prim .positive) },
   /- 5493 -/ { field := k!"counterOffset", path := (.first [k!"COUNTER-OFFSET"] .nil), item := (.prim .positive) }]

/-- `getEventControlledTiming`, `parser/arxml_parser.py:8648-8655` (the `EventControlledTiming` it makes) -/
def getEventControlledTiming_EventControlledTiming : List RSlot :=
  [/- 8653 -/ { field := k!"numberOfRepetitions", path := (.first [k!"NUMBER-OF-REPETITIONS"] .nil), item := (.prim .integer) },
   /- 8654 -/ { field := k!"repetitionPeriod", path := (.first [k!"REPETITION-PERIOD"] .nil), item := (.objs [(k!"REPETITION-PERIOD", k!"getTimeRangeType_TimeRangeType")]) }]

/-- `getGraphic`, `parser/arxml_parser.py:3633-3640` (the `Graphic` it makes) -/
def getGraphic_Graphic : List RSlot :=
  [/- 3639 -/ { field := k!"filename", path := .nil, item := (.attr k!"FILENAME" .raw) }]

/-- `getIPduMappings`, `parser/arxml_parser.py:8277-8284` (the `IPduMapping` it makes) -/
def getIPduMappings_IPduMapping : List RSlot :=
  [/- 8281 -/ { field := k!"sourceIpduRef", path := (.first [k!"SOURCE-I-PDU-REF"] .nil), item := (.prim .ref) },
   /- 8282 -/ { field := k!"targetIPdu", path := (.first [k!"TARGET-I-PDU"] .nil), item := (.objs [(k!"TARGET-I-PDU", k!"getTargetIPduRef_TargetIPduRef")]) }]

/-- `getISignalIPduIPduTimingSpecification`, `parser/arxml_parser.py:8678-8685` (the `IPduTiming` it makes) -/
def getISignalIPduIPduTimingSpecification_IPduTiming : List RSlot :=
  [/- 8683 -/ { field := k!"minimumDelay", path := (.first [k!"MINIMUM-DELAY"] .nil), item := (.prim .time) },
   /- 8684 -/ { field := k!"transmissionModeDeclaration", path := (.first [k!"TRANSMISSION-MODE-DECLARATION"] .nil), item := (.objs [(k!"TRANSMISSION-MODE-DECLARATION", k!"getTransmissionModeDeclaration_TransmissionModeDeclaration")]) }]

/-- `getISignalMappings`, `parser/arxml_parser.py:8260-8267` (the `ISignalMapping` it makes) -/
def getISignalMappings_ISignalMapping : List RSlot :=
  [/- 8264 -/ { field := k!"sourceSignalRef", path := (.first [k!"SOURCE-SIGNAL-REF"] .nil), item := (.prim .ref) },
   /- 8265 -/ { field := k!"targetSignalRef", path := (.first [k!"TARGET-SIGNAL-REF"] .nil), item := (.prim .ref) }]

/-- `getIncludedModeDeclarationGroupSets`, `parser/arxml_parser.py:2120-2127` (the `IncludedModeDeclarationGroupSet` it makes) -/
def getIncludedModeDeclarationGroupSets_IncludedModeDeclarationGroupSet : List RSlot :=
  [/- 2125 -/ { field := k!"mode_declaration_group_refs", path := (.all k!"MODE-DECLARATION-GROUP-REFS" (.all k!"MODE-DECLARATION-GROUP-REF" .nil)), item := (.prim .ref) }]

/-- `getIndentSample`, `parser/arxml_parser.py:3740-3747` (the `IndentSample` it makes) -/
def getIndentSample_IndentSample : List RSlot :=
  [/- 3742 -/ { field := k!"timestamp", path := .nil, item := (.attr k!"T" .raw) },
   /- 3742 -/ { field := k!"uuid", path := .nil, item := (.attr k!"UUID" .raw) },
   /- 3744 -/ { field := k!"itemLabelPos", path := .nil, item := (.attr k!"ITEMLABELPOS" .lit) },
   /- 3746 -/ { field := k!"l2s", path := (.all k!"L-2" .nil), item := (.objs [(k!"L-2", k!"getLOverviewParagraphs_LOverviewParagraph")]) }]

/-- `getInfrastructureServices`, `parser/arxml_parser.py:5950-5956` (the `InfrastructureServices` it makes) -/
def getInfrastructureServices_InfrastructureServices : List RSlot :=
  [/- 5955 -/ { field := k!"doIpEntity", path := (.first [k!"DO-IP-ENTITY"] .nil), item := (.objs [(k!"DO-IP-ENTITY", k!"getDoIpEntity_DoIpEntity")]) }]

/-- `getInitialSdDelayConfig`, `parser/arxml_parser.py:6125-6134` (the `InitialSdDelayConfig` it makes) -/
def getInitialSdDelayConfig_InitialSdDelayConfig : List RSlot :=
  [/- 6130 -/ { field := k!"initialDelayMaxValue", path := (.first [k!"INITIAL-DELAY-MAX-VALUE"] .nil), item := (.prim .time) },
   /- 6131 -/ { field := k!"initialDelayMinValue", path := (.first [k!"INITIAL-DELAY-MIN-VALUE"] .nil), item := (.prim .time) },
   /- 6132 -/ { field := k!"initialRepetitionsBaseDelay", path := (.first [k!"INITIAL-REPETITIONS-BASE-DELAY"] .nil), item := (.prim .time) },
   /- 6133 -/ { field := k!"initialRepetitionsMax", path := (.first [k!"INITIAL-REPETITIONS-MAX"] .nil), item := (.prim .positive) }]

/-- `getIpv6Configuration`, `parser/arxml_parser.py:5921-5932` (the `Ipv6Configuration` it makes) -/
def getIpv6Configuration_Ipv6Configuration : List RSlot :=
  [/- 5925 -/ { field := k!"assignmentPriority", path := (.first [k!"ASSIGNMENT-PRIORITY"] .nil), item := (.prim .positive) },
   /- 5926 -/ { field := k!"defaultRouter", path := (.first [k!"DEFAULT-ROUTER"] .nil), item := (.prim .lit) },
   /- 5927 -/ { field := k!"enableAnycast", path := (.first [k!"ENABLE-ANYCAST"] .nil), item := (.prim .boolean) },
   /- 5928 -/ { field := k!"hopCount", path := (.first [k!"HOP-COUNT"] .nil), item := (.prim .positive) },
   /- 5929 -/ { field := k!"ipAddressPrefixLength", path := (.first [k!"IP-ADDRESS-PREFIX-LENGTH"] .nil), item := (.prim .positive) },
   /- 5930 -/ { field := k!"ipv6Address", path := (.first [k!"IPV-6-ADDRESS"] .nil), item := (.prim .lit) },
   /- 5931 -/ { field := k!"ipv6AddressSource", path := (.first [k!"IPV-6-ADDRESS-SOURCE"] .nil), item := (.prim .lit) }]

/-- `readLanguageSpecific`, `parser/arxml_parser.py:3587-3591`; also `readLOverviewParagraph` -/
def readLanguageSpecific : List RSlot :=
  [/- 3588 -/ { field := k!"timestamp", path := .nil, item := (.attr k!"T" .raw) },
   /- 3588 -/ { field := k!"uuid", path := .nil, item := (.attr k!"UUID" .raw) },
   /- 3589 -/ { field := k!"value", path := .nil, item := (.prim .raw) },
   /- 3591 -/ { field := k!"l", path := .nil, item := (.attr k!"L" .raw) }]

/-- `getLParagraphs`, `parser/arxml_parser.py:3593-3599` (the `LParagraph` it makes); also `getLOverviewParagraphs`, `getLPlainTexts`, `getMultiLanguageVerbatim` -/
def getLParagraphs_LParagraph : List RSlot :=
  /- 3597 -/ readLanguageSpecific

/-- `getLabeledItem`, `parser/arxml_parser.py:3749-3756` (the `LabeledItem` it makes) -/
def getLabeledItem_LabeledItem : List RSlot :=
  [/- 3751 -/ { field := k!"timestamp", path := .nil, item := (.attr k!"T" .raw) },
   /- 3751 -/ { field := k!"uuid", path := .nil, item := (.attr k!"UUID" .raw) },
   /- 3753 -/ { field := k!"helpEntry", path := .nil, item := (.attr k!"HELPENTRY" .lit) },
   /- 3754 -/ { field := k!"itemContents", path := (.first [k!"ITEM-CONTENTS"] .nil), item := (.objs [(k!"ITEM-CONTENTS", k!"getDocumentationBlock_DocumentationBlock")]) },
   /- 3755 -/ { field := k!"itemLabel", path := (.first [k!"ITEM-LABEL"] .nil), item := (.objs [(k!"ITEM-LABEL", k!"getMultiLanguageOverviewParagraph_MultiLanguageOverviewParagraph")]) }]

/-- `getLabeledList`, `parser/arxml_parser.py:3758-3769` (the `LabeledList` it makes) -/
def getLabeledList_LabeledList : List RSlot :=
  [/- 3763 -/ { field := k!"timestamp", path := .nil, item := (.attr k!"T" .raw) },
   /- 3763 -/ { field := k!"uuid", path := .nil, item := (.attr k!"UUID" .raw) },
   /- 3766 -/ { field := k!"indentSample", path := (.first [k!"INDENT-SAMPLE"] .nil), item := (.objs [(k!"INDENT-SAMPLE", k!"getIndentSample_IndentSample")]) },
   /- 3768 -/ { field := k!"labeledItems", path := (.all k!"LABELED-ITEM" .nil), item := (.objs [(k!"LABELED-ITEM", k!"getLabeledItem_LabeledItem")]) }]

/-- `getLifeCyclePeriod`, `parser/arxml_parser.py:8868-8874` (the `LifeCyclePeriod` it makes) -/
def getLifeCyclePeriod_LifeCyclePeriod : List RSlot :=
  [/- 8873 -/ { field := k!"arReleaseVersion", path := (.first [k!"AR-RELEASE-VERSION"] .nil), item := (.prim .revision) }]

/-- `getListElements`, `parser/arxml_parser.py:3619-3631` (the `ARList` it makes) -/
def getListElements_ARList : List RSlot :=
  [/- 3627 -/ { field := k!"type", path := .nil, item := (.attr k!"TYPE" .raw) },
   /- 3629 -/ { field := k!"items", path := (.all k!"ITEM" .nil), item := (.objs [(k!"ITEM", k!"getDocumentationBlock_DocumentationBlock")]) }]

/-- `readPaginateable`, `parser/arxml_parser.py:3653-3654`; also `getTransformationComSpecProps`, `readUserDefinedTransformationComSpecProps` -/
def readPaginateable : List RSlot :=
  /- 3654 -/ readPPortComSpec

/-- `readMlFigureLGraphics`, `parser/arxml_parser.py:3642-3648` -/
def readMlFigureLGraphics : List RSlot :=
  [/- 3648 -/ { field := k!"lGraphics", path := (.all k!"L-GRAPHIC" .nil), item := (.objs [(k!"L-GRAPHIC", k!"getMlFormula_LGraphic")]) }]

/-- `readMlFigure`, `parser/arxml_parser.py:3656-3658` -/
def readMlFigure : List RSlot :=
  /- 3657 -/ readPaginateable ++
  /- 3658 -/ readMlFigureLGraphics

/-- `getMlFigures`, `parser/arxml_parser.py:3660-3666` (the `MlFigure` it makes) -/
def getMlFigures_MlFigure : List RSlot :=
  /- 3664 -/ readMlFigure

/-- `getMlFormula`, `parser/arxml_parser.py:3828-3844` (the `LGraphic` it makes); also `readMlFigureLGraphics` -/
def getMlFormula_LGraphic : List RSlot :=
  [/- 3838 -/ { field := k!"l", path := .nil, item := (.attr k!"L" .raw) },
   /- 3839 -/ { field := k!"graphic", path := (.first [k!"GRAPHIC"] .nil), item := (.objs [(k!"GRAPHIC", k!"getGraphic_Graphic")]) }]

/-- `getMlFormula`, `parser/arxml_parser.py:3828-3844` (the `MlFormula` it makes) -/
def getMlFormula_MlFormula : List RSlot :=
  /- 3833 -/ readPaginateable ++
  [/- 3834 -/ { field := k!"formulaCaption", path := (.first [k!"FORMULA-CAPTION"] .nil), item := (.objs [(k!"FORMULA-CAPTION", k!"getCaption_Caption")]) },
   /- 3840 -/ { field := k!"lGraphics", path := (.all k!"L-GRAPHIC" .nil), item := (.objs [(k!"L-GRAPHIC", k!"getMlFormula_LGraphic")]) },
   /- 3841 -/ { field := k!"verbatim", path := (.first [k!"VERBATIM"] .nil), item := (.objs [(k!"VERBATIM", k!"getMultiLanguageVerbatim_MultiLanguageVerbatim")]) },
   /- 3842 -/ { field := k!"texMath", path := (.first [k!"TEX-MATH"] .nil), item := (.objs [(k!"TEX-MATH", k!"getMultiLanguagePlainText_MultiLanguagePlainText")]) },
   /- 3843 -/ { field := k!"genericMath", path := (.first [k!"GENERIC-MATH"] .nil), item := (.objs [(k!"GENERIC-MATH", k!"getMultiLanguagePlainText_MultiLanguagePlainText")]) }]

/-- `readModeGroupInAtomicSwcInstanceRef`, `parser/arxml_parser.py:3180-3182` -/
def readModeGroupInAtomicSwcInstanceRef : List RSlot :=
  [/- 3181 -/ { field := k!"baseRef", path := (.first [k!"BASE-REF"] .nil), item := (.prim .ref) },
   /- 3182 -/ { field := k!"contextPortRef", path := (.first [k!"CONTEXT-PORT-REF"] .nil), item := (.prim .ref) }]

/-- `readPModeGroupInAtomicSWCInstanceRef`, `parser/arxml_parser.py:3189-3192` -/
def readPModeGroupInAtomicSWCInstanceRef : List RSlot :=
  /- 3190 -/ readModeGroupInAtomicSwcInstanceRef ++
  [/- 3191 -/ { field := k!"contextPPortRef", path := (.first [k!"CONTEXT-P-PORT-REF"] .nil), item := (.prim .ref) },
   /- 3192 -/ { field := k!"targetModeGroupRef", path := (.first [k!"TARGET-MODE-GROUP-REF"] .nil), item := (.prim .ref) }]

/-- `getModeGroupIRef`, `parser/arxml_parser.py:3283-3295` (the `PModeGroupInAtomicSwcInstanceRef` it makes); also `readModeSwitchPointModeGroupIRef`, `readSwcBswSynchronizedModeGroupPrototype` -/
def getModeGroupIRef_PModeGroupInAtomicSwcInstanceRef : List RSlot :=
  /- 3289 -/ readPModeGroupInAtomicSWCInstanceRef

/-- `readRModeGroupInAtomicSWCInstanceRef`, `parser/arxml_parser.py:3184-3187` -/
def readRModeGroupInAtomicSWCInstanceRef : List RSlot :=
  /- 3185 -/ readModeGroupInAtomicSwcInstanceRef ++
  [/- 3186 -/ { field := k!"contextRPortRef", path := (.first [k!"CONTEXT-R-PORT-REF"] .nil), item := (.prim .ref) },
   /- 3187 -/ { field := k!"targetModeGroupRef", path := (.first [k!"TARGET-MODE-GROUP-REF"] .nil), item := (.prim .ref) }]

/-- `getModeGroupIRef`, `parser/arxml_parser.py:3283-3295` (the `RModeGroupInAtomicSWCInstanceRef` it makes) -/
def getModeGroupIRef_RModeGroupInAtomicSWCInstanceRef : List RSlot :=
  /- 3292 -/ readRModeGroupInAtomicSWCInstanceRef

/-- `getModeInBswModuleDescriptionInstanceRef`, `parser/arxml_parser.py:3392-3397` (the `ModeInBswModuleDescriptionInstanceRef` it makes) -/
def getModeInBswModuleDescriptionInstanceRef_ModeInBswModuleDescriptionInstanceRef : List RSlot :=
  [/- 3394 -/ { field := k!"timestamp", path := .nil, item := (.attr k!"T" .raw) },
   /- 3394 -/ { field := k!"uuid", path := .nil, item := (.attr k!"UUID" .raw) },
   /- 3395 -/ { field := k!"contextModeDeclarationGroupRef", path := (.first [k!"CONTEXT-MODE-DECLARATION-GROUP-REF"] .nil), item := (.prim .ref) },
   /- 3396 -/ { field := k!"targetModeRef", path := (.first [k!"TARGET-MODE-REF"] .nil), item := (.prim .ref) }]

/-- `getModeSwitchEventTriggeredActivity`, `parser/arxml_parser.py:1387-1391` (the `ModeSwitchEventTriggeredActivity` it makes) -/
def getModeSwitchEventTriggeredActivity_ModeSwitchEventTriggeredActivity : List RSlot :=
  [/- 1389 -/ { field := k!"role", path := (.first [k!"ROLE"] .nil), item := (.prim .lit) },
   /- 1390 -/ { field := k!"swcModeSwitchEventRef", path := (.first [k!"SWC-MODE-SWITCH-EVENT-REF"] .nil), item := (.prim .ref) }]

/-- `getModeSwitchReceiverComSpec`, `parser/arxml_parser.py:4288-4294` (the `ModeSwitchReceiverComSpec` it makes) -/
def getModeSwitchReceiverComSpec_ModeSwitchReceiverComSpec : List RSlot :=
  /- 4290 -/ readPPortComSpec ++
  [/- 4291 -/ { field := k!"enhancedModeApi", path := (.first [k!"ENHANCED-MODE-API"] .nil), item := (.prim .boolean) },
   /- 4292 -/ { field := k!"modeGroupRef", path := (.first [k!"MODE-GROUP-REF"] .nil), item := (.prim .ref) },
   /- 4293 -/ { field := k!"supportsAsynchronousModeSwitch", path := (.first [k!"SUPPORTS-ASYNCHRONOUS-MODE-SWITCH"] .nil), item := (.prim .boolean) }]

/-- `getModeSwitchSenderComSpec`, `parser/arxml_parser.py:4529-4534` (the `ModeSwitchSenderComSpec` it makes) -/
def getModeSwitchSenderComSpec_ModeSwitchSenderComSpec : List RSlot :=
  [/- 4531 -/ { field := k!"modeGroupRef", path := (.first [k!"MODE-GROUP-REF"] .nil), item := (.prim .ref) },
   /- 4532 -/ { field := k!"modeSwitchedAck", path := (.first [k!"MODE-SWITCHED-ACK"] .nil), item := (.objs [(k!"MODE-SWITCHED-ACK", k!"getModeSwitchedAckRequest_ModeSwitchedAckRequest")]) },
   /- 4533 -/ { field := k!"queueLength", path := (.first [k!"QUEUE-LENGTH"] .nil), item := (.prim .numerical) }]

/-- `getMsrQueryArg`, `parser/arxml_parser.py:3799-3805` (the `MsrQueryArg` it makes) -/
def getMsrQueryArg_MsrQueryArg : List RSlot :=
  [/- 3801 -/ { field := k!"timestamp", path := .nil, item := (.attr k!"T" .raw) },
   /- 3801 -/ { field := k!"uuid", path := .nil, item := (.attr k!"UUID" .raw) },
   /- 3802 -/ { field := k!"arg", path := (.first [k!"ARG"] .nil), item := (.prim .lit) },
   /- 3804 -/ { field := k!"si", path := .nil, item := (.attr k!"SI" .lit) }]

/-- `getMsrQueryP2`, `parser/arxml_parser.py:3816-3826` (the `MsrQueryP2` it makes) -/
def getMsrQueryP2_MsrQueryP2 : List RSlot :=
  [/- 3821 -/ { field := k!"timestamp", path := .nil, item := (.attr k!"T" .raw) },
   /- 3821 -/ { field := k!"uuid", path := .nil, item := (.attr k!"UUID" .raw) },
   /- 3824 -/ { field := k!"msrQueryProps", path := (.first [k!"MSR-QUERY-PROPS"] .nil), item := (.objs [(k!"MSR-QUERY-PROPS", k!"getMsrQueryProps_MsrQueryProps")]) },
   /- 3825 -/ { field := k!"msrQueryResultP2", path := (.first [k!"MSR-QUERY-RESULT-P2"] .nil), item := (.objs [(k!"MSR-QUERY-RESULT-P2", k!"getDocumentationBlock_DocumentationBlock")]) }]

/-- `getMsrQueryProps`, `parser/arxml_parser.py:3807-3814` (the `MsrQueryProps` it makes) -/
def getMsrQueryProps_MsrQueryProps : List RSlot :=
  [/- 3809 -/ { field := k!"timestamp", path := .nil, item := (.attr k!"T" .raw) },
   /- 3809 -/ { field := k!"uuid", path := .nil, item := (.attr k!"UUID" .raw) },
   /- 3810 -/ { field := k!"comment", path := (.first [k!"COMMENT"] .nil), item := (.prim .lit) },
   /- 3811 -/ { field := k!"msrQueryName", path := (.first [k!"MSR-QUERY-NAME"] .nil), item := (.prim .lit) },
   /- 3813 -/ { field := k!"msrQueryArgs", path := (.all k!"MSR-QUERY-ARG" .nil), item := (.objs [(k!"MSR-QUERY-ARG", k!"getMsrQueryArg_MsrQueryArg")]) }]

/-- `readLOverviewParagraph`, `parser/arxml_parser.py:1019-1026` -/
def readLOverviewParagraph : List RSlot :=
  [/- 1026 -/ { field := k!"l2", path := (.all k!"L-2" .nil), item := (.objs [(k!"L-2", k!"readLOverviewParagraph_LOverviewParagraph")]) }]

/-- `getMultiLanguageOverviewParagraph`, `parser/arxml_parser.py:1028-1035` (the `MultiLanguageOverviewParagraph` it makes) -/
def getMultiLanguageOverviewParagraph_MultiLanguageOverviewParagraph : List RSlot :=
  [/- 1033 -/ { field := k!"timestamp", path := .nil, item := (.attr k!"T" .raw) },
   /- 1033 -/ { field := k!"uuid", path := .nil, item := (.attr k!"UUID" .raw) }] ++
  /- 1034 -/ readLOverviewParagraph

/-- `getMultiLanguageParagraphs`, `parser/arxml_parser.py:3601-3609` (the `MultiLanguageParagraph` it makes) -/
def getMultiLanguageParagraphs_MultiLanguageParagraph : List RSlot :=
  [/- 3605 -/ { field := k!"timestamp", path := .nil, item := (.attr k!"T" .raw) },
   /- 3605 -/ { field := k!"uuid", path := .nil, item := (.attr k!"UUID" .raw) },
   /- 3607 -/ { field := k!"l1", path := (.all k!"L-1" .nil), item := (.objs [(k!"L-1", k!"getLParagraphs_LParagraph")]) }]

/-- `getMultiLanguagePlainText`, `parser/arxml_parser.py:3668-3676` (the `MultiLanguagePlainText` it makes) -/
def getMultiLanguagePlainText_MultiLanguagePlainText : List RSlot :=
  [/- 3673 -/ { field := k!"timestamp", path := .nil, item := (.attr k!"T" .raw) },
   /- 3673 -/ { field := k!"uuid", path := .nil, item := (.attr k!"UUID" .raw) },
   /- 3675 -/ { field := k!"l10s", path := (.all k!"L-10" .nil), item := (.objs [(k!"L-10", k!"getLParagraphs_LParagraph")]) }]

/-- `getMultiLanguageVerbatim`, `parser/arxml_parser.py:3779-3797` (the `MultiLanguageVerbatim` it makes) -/
def getMultiLanguageVerbatim_MultiLanguageVerbatim : List RSlot :=
  [/- 3784 -/ { field := k!"timestamp", path := .nil, item := (.attr k!"T" .raw) },
   /- 3784 -/ { field := k!"uuid", path := .nil, item := (.attr k!"UUID" .raw) },
   /- 3786 -/ { field := k!"allowBreak", path := .nil, item := (.attr k!"ALLOWBREAK" .lit) },
   /- 3788 -/ { field := k!"float", path := .nil, item := (.attr k!"FLOAT" .lit) },
   /- 3790 -/ { field := k!"helpEntry", path := .nil, item := (.attr k!"HELPENTRY" .lit) },
   /- 3792 -/ { field := k!"pgwide", path := .nil, item := (.attr k!"PGWIDE" .lit) },
   /- 3796 -/ { field := k!"l5s", path := (.all k!"L-5" .nil), item := (.objs [(k!"L-5", k!"getMultiLanguageVerbatim_LVerbatim")]) }]

/-- `readLLongName`, `parser/arxml_parser.py:953-972` -/
def readLLongName : List RSlot :=
  [/- 972 -/ { field := k!"l4", path := (.all k!"L-4" .nil), item := (.objs [(k!"L-4", k!"readLLongName_LLongName")]) }]

/-- `getMultilanguageLongName`, `parser/arxml_parser.py:1010-1017` (the `MultilanguageLongName` it makes) -/
def getMultilanguageLongName_MultilanguageLongName : List RSlot :=
  [/- 1015 -/ { field := k!"timestamp", path := .nil, item := (.attr k!"T" .raw) },
   /- 1015 -/ { field := k!"uuid", path := .nil, item := (.attr k!"UUID" .raw) }] ++
  /- 1016 -/ readLLongName

/-- `readReceiverComSpec`, `parser/arxml_parser.py:4152-4173` -/
def readReceiverComSpec : List RSlot :=
  /- 4153 -/ readPPortComSpec ++
  [/- 4155 -/ { field := k!"compositeNetworkRepresentations", path := (.all k!"COMPOSITE-NETWORK-REPRESENTATIONS" (.all k!"COMPOSITE-NETWORK-REPRESENTATION" .nil)), item := (.objs [(k!"COMPOSITE-NETWORK-REPRESENTATION", k!"getCompositeNetworkRepresentation_CompositeNetworkRepresentation")]) },
   /- 4156 -/ { field := k!"dataElementRef", path := (.first [k!"DATA-ELEMENT-REF"] .nil), item := (.prim .ref) },
   /- 4157 -/ { field := k!"networkRepresentation", path := (.first [k!"NETWORK-REPRESENTATION"] .nil), item := (.objs [(k!"NETWORK-REPRESENTATION", k!"getSwDataDefProps_SwDataDefProps")]) },
   /- 4158 -/ { field := k!"handleOutOfRange", path := (.first [k!"HANDLE-OUT-OF-RANGE"] .nil), item := (.prim .lit) },
   /- 4159 -/ { field := k!"handleOutOfRangeStatus", path := (.first [k!"HANDLE-OUT-OF-RANGE-STATUS"] .nil), item := (.prim .lit) },
   /- 4160 -/ { field := k!"maxDeltaCounterInit", path := (.first [k!"MAX-DELTA-COUNTER-INIT"] .nil), item := (.prim .positive) },
   /- 4161 -/ { field := k!"maxNoNewOrRepeatedData", path := (.first [k!"MAX-NO-NEW-OR-REPEATED-DATA"] .nil), item := (.prim .positive) },
   /- 4162 -/ { field := k!"usesEndToEndProtection", path := (.first [k!"USES-END-TO-END-PROTECTION"] .nil), item := (.prim .boolean) },
   /- 4165 -/ { field := k!"receptionProps", path := (.first [k!"RECEPTION-PROPS"] .nil), item := (.objs [(k!"RECEPTION-PROPS", k!"getReceptionComSpecProps_ReceptionComSpecProps")]) },
   /- 4170 -/ { field := k!"replaceWith", path := (.first [k!"REPLACE-WITH"] .nil), item := (.objs [(k!"REPLACE-WITH", k!"readReceiverComSpec_VariableAccess")]) },
   /- 4171 -/ { field := k!"syncCounterInit", path := (.first [k!"SYNC-COUNTER-INIT"] .nil), item := (.prim .positive) },
   /- 4203 -/ { field := 0, path := (.all k!"TRANSFORMATION-COM-SPEC-PROPSS" (.all k!"TRANSFORMATION-COM-SPEC-PROPS" (.first [0] .nil))), item := (.guard [k!"END-TO-END-TRANSFORMATION-COM-SPEC-PROPS", k!"USER-DEFINED-TRANSFORMATION-COM-SPEC-PROPS"] .unsupported) },
   /- 4173 -/ { field := k!"transformationComSpecProps", path := (.all k!"TRANSFORMATION-COM-SPEC-PROPSS" (.all k!"TRANSFORMATION-COM-SPEC-PROPS" (.first [0] .nil))), item := (.objs [(k!"END-TO-END-TRANSFORMATION-COM-SPEC-PROPS", k!"getTransformationComSpecProps_EndToEndTransformationComSpecProps"), (k!"USER-DEFINED-TRANSFORMATION-COM-SPEC-PROPS", k!"getTransformationComSpecProps_UserDefinedTransformationComSpecProps")]) }]

/-- `getNonqueuedReceiverComSpec`, `parser/arxml_parser.py:4296-4308` (the `NonqueuedReceiverComSpec` it makes) -/
def getNonqueuedReceiverComSpec_NonqueuedReceiverComSpec : List RSlot :=
  [/- 4298 -/ { field := k!"timestamp", path := .nil, item := (.attr k!"T" .raw) },
   /- 4298 -/ { field := k!"uuid", path := .nil, item := (.attr k!"UUID" .raw) }] ++
  /- 4299 -/ readReceiverComSpec ++
  [/- 4300 -/ { field := k!"aliveTimeout", path := (.first [k!"ALIVE-TIMEOUT"] .nil), item := (.prim .float) },
   /- 4301 -/ { field := k!"enableUpdate", path := (.first [k!"ENABLE-UPDATE"] .nil), item := (.prim .boolean) },
   /- 4302 -/ { field := k!"handleDataStatus", path := (.first [k!"HANDLE-DATA-STATUS"] .nil), item := (.prim .boolean) },
   /- 4303 -/ { field := k!"handleNeverReceived", path := (.first [k!"HANDLE-NEVER-RECEIVED"] .nil), item := (.prim .boolean) },
   /- 4304 -/ { field := k!"filter", path := (.first [k!"FILTER"] .nil), item := (.objs [(k!"FILTER", k!"getDataFilter_DataFilter")]) },
   /- 4305 -/ { field := k!"handleTimeoutType", path := (.first [k!"HANDLE-TIMEOUT-TYPE"] .nil), item := (.prim .lit) },
   /- 4306 -/ { field := k!"initValue", path := (.first [k!"INIT-VALUE", 0] .nil), item := (.objs [(k!"APPLICATION-VALUE-SPECIFICATION", k!"getApplicationValueSpecification_ApplicationValueSpecification"), (k!"APPLICATION-RULE-BASED-VALUE-SPECIFICATION", k!"getApplicationRuleBasedValueSpecification_ApplicationRuleBasedValueSpecification"), (k!"COMPOSITE-RULE-BASED-VALUE-SPECIFICATION", k!"getCompositeRuleBasedValueSpecification_CompositeRuleBasedValueSpecification"), (k!"RECORD-VALUE-SPECIFICATION", k!"getRecordValueSpecification_RecordValueSpecification"), (k!"NUMERICAL-VALUE-SPECIFICATION", k!"getNumericalValueSpecification_NumericalValueSpecification"), (k!"ARRAY-VALUE-SPECIFICATION", k!"getArrayValueSpecification_ArrayValueSpecification"), (k!"TEXT-VALUE-SPECIFICATION", k!"getTextValueSpecification_TextValueSpecification"), (k!"CONSTANT-REFERENCE", k!"getConstantReference_ConstantReference")]) },
   /- 4307 -/ { field := k!"timeoutSubstitutionValue", path := (.first [k!"TIMEOUT-SUBSTITUTION-VALUE", 0] .nil), item := (.objs [(k!"APPLICATION-VALUE-SPECIFICATION", k!"getApplicationValueSpecification_ApplicationValueSpecification"), (k!"APPLICATION-RULE-BASED-VALUE-SPECIFICATION", k!"getApplicationRuleBasedValueSpecification_ApplicationRuleBasedValueSpecification"), (k!"COMPOSITE-RULE-BASED-VALUE-SPECIFICATION", k!"getCompositeRuleBasedValueSpecification_CompositeRuleBasedValueSpecification"), (k!"RECORD-VALUE-SPECIFICATION", k!"getRecordValueSpecification_RecordValueSpecification"), (k!"NUMERICAL-VALUE-SPECIFICATION", k!"getNumericalValueSpecification_NumericalValueSpecification"), (k!"ARRAY-VALUE-SPECIFICATION", k!"getArrayValueSpecification_ArrayValueSpecification"), (k!"TEXT-VALUE-SPECIFICATION", k!"getTextValueSpecification_TextValueSpecification"), (k!"CONSTANT-REFERENCE", k!"getConstantReference_ConstantReference")]) },
   /- 5392 -/ { field := 0, path := (.first [k!"INIT-VALUE", 0] .nil), item := (.guard [k!"APPLICATION-VALUE-SPECIFICATION", k!"APPLICATION-RULE-BASED-VALUE-SPECIFICATION", k!"COMPOSITE-RULE-BASED-VALUE-SPECIFICATION", k!"RECORD-VALUE-SPECIFICATION", k!"NUMERICAL-VALUE-SPECIFICATION", k!"ARRAY-VALUE-SPECIFICATION", k!"TEXT-VALUE-SPECIFICATION", k!"CONSTANT-REFERENCE"] .unbound) },
   /- 5392 -/ { field := 0, path := (.first [k!"TIMEOUT-SUBSTITUTION-VALUE", 0] .nil), item := (.guard [k!"APPLICATION-VALUE-SPECIFICATION", k!"APPLICATION-RULE-BASED-VALUE-SPECIFICATION", k!"COMPOSITE-RULE-BASED-VALUE-SPECIFICATION", k!"RECORD-VALUE-SPECIFICATION", k!"NUMERICAL-VALUE-SPECIFICATION", k!"ARRAY-VALUE-SPECIFICATION", k!"TEXT-VALUE-SPECIFICATION", k!"CONSTANT-REFERENCE"] .unbound) }]

/-- `getNonqueuedReceiverComSpec`, `parser/arxml_parser.py:4296-4308` (the `NonqueuedReceiverComSpec` it makes); with what ports check, `Components/__init__.py:312-380` -/
def getNonqueuedReceiverComSpec_NonqueuedReceiverComSpec_port : List RSlot :=
  aim k!"dataElementRef" t!"VARIABLE-DATA-PROTOTYPE" false (
  [/- 4298 -/ { field := k!"timestamp", path := .nil, item := (.attr k!"T" .raw) },
   /- 4298 -/ { field := k!"uuid", path := .nil, item := (.attr k!"UUID" .raw) }] ++
  /- 4299 -/ readReceiverComSpec ++
  [/- 4300 -/ { field := k!"aliveTimeout", path := (.first [k!"ALIVE-TIMEOUT"] .nil), item := (.prim .float) },
   /- 4301 -/ { field := k!"enableUpdate", path := (.first [k!"ENABLE-UPDATE"] .nil), item := (.prim .boolean) },
   /- 4302 -/ { field := k!"handleDataStatus", path := (.first [k!"HANDLE-DATA-STATUS"] .nil), item := (.prim .boolean) },
   /- 4303 -/ { field := k!"handleNeverReceived", path := (.first [k!"HANDLE-NEVER-RECEIVED"] .nil), item := (.prim .boolean) },
   /- 4304 -/ { field := k!"filter", path := (.first [k!"FILTER"] .nil), item := (.objs [(k!"FILTER", k!"getDataFilter_DataFilter")]) },
   /- 4305 -/ { field := k!"handleTimeoutType", path := (.first [k!"HANDLE-TIMEOUT-TYPE"] .nil), item := (.prim .lit) },
   /- 4306 -/ { field := k!"initValue", path := (.first [k!"INIT-VALUE", 0] .nil), item := (.objs [(k!"APPLICATION-VALUE-SPECIFICATION", k!"getApplicationValueSpecification_ApplicationValueSpecification"), (k!"APPLICATION-RULE-BASED-VALUE-SPECIFICATION", k!"getApplicationRuleBasedValueSpecification_ApplicationRuleBasedValueSpecification"), (k!"COMPOSITE-RULE-BASED-VALUE-SPECIFICATION", k!"getCompositeRuleBasedValueSpecification_CompositeRuleBasedValueSpecification"), (k!"RECORD-VALUE-SPECIFICATION", k!"getRecordValueSpecification_RecordValueSpecification"), (k!"NUMERICAL-VALUE-SPECIFICATION", k!"getNumericalValueSpecification_NumericalValueSpecification"), (k!"ARRAY-VALUE-SPECIFICATION", k!"getArrayValueSpecification_ArrayValueSpecification"), (k!"TEXT-VALUE-SPECIFICATION", k!"getTextValueSpecification_TextValueSpecification"), (k!"CONSTANT-REFERENCE", k!"getConstantReference_ConstantReference")]) },
   /- 4307 -/ { field := k!"timeoutSubstitutionValue", path := (.first [k!"TIMEOUT-SUBSTITUTION-VALUE", 0] .nil), item := (.objs [(k!"APPLICATION-VALUE-SPECIFICATION", k!"getApplicationValueSpecification_ApplicationValueSpecification"), (k!"APPLICATION-RULE-BASED-VALUE-SPECIFICATION", k!"getApplicationRuleBasedValueSpecification_ApplicationRuleBasedValueSpecification"), (k!"COMPOSITE-RULE-BASED-VALUE-SPECIFICATION", k!"getCompositeRuleBasedValueSpecification_CompositeRuleBasedValueSpecification"), (k!"RECORD-VALUE-SPECIFICATION", k!"getRecordValueSpecification_RecordValueSpecification"), (k!"NUMERICAL-VALUE-SPECIFICATION", k!"getNumericalValueSpecification_NumericalValueSpecification"), (k!"ARRAY-VALUE-SPECIFICATION", k!"getArrayValueSpecification_ArrayValueSpecification"), (k!"TEXT-VALUE-SPECIFICATION", k!"getTextValueSpecification_TextValueSpecification"), (k!"CONSTANT-REFERENCE", k!"getConstantReference_ConstantReference")]) },
   /- 5392 -/ { field := 0, path := (.first [k!"INIT-VALUE", 0] .nil), item := (.guard [k!"APPLICATION-VALUE-SPECIFICATION", k!"APPLICATION-RULE-BASED-VALUE-SPECIFICATION", k!"COMPOSITE-RULE-BASED-VALUE-SPECIFICATION", k!"RECORD-VALUE-SPECIFICATION", k!"NUMERICAL-VALUE-SPECIFICATION", k!"ARRAY-VALUE-SPECIFICATION", k!"TEXT-VALUE-SPECIFICATION", k!"CONSTANT-REFERENCE"] .unbound) },
   /- 5392 -/ { field := 0, path := (.first [k!"TIMEOUT-SUBSTITUTION-VALUE", 0] .nil), item := (.guard [k!"APPLICATION-VALUE-SPECIFICATION", k!"APPLICATION-RULE-BASED-VALUE-SPECIFICATION", k!"COMPOSITE-RULE-BASED-VALUE-SPECIFICATION", k!"RECORD-VALUE-SPECIFICATION", k!"NUMERICAL-VALUE-SPECIFICATION", k!"ARRAY-VALUE-SPECIFICATION", k!"TEXT-VALUE-SPECIFICATION", k!"CONSTANT-REFERENCE"] .unbound) }])

/-- `readSenderComSpec`, `parser/arxml_parser.py:4441-4450` -/
def readSenderComSpec : List RSlot :=
  [/- 4442 -/ { field := k!"timestamp", path := .nil, item := (.attr k!"T" .raw) },
   /- 4442 -/ { field := k!"uuid", path := .nil, item := (.attr k!"UUID" .raw) },
   /- 4444 -/ { field := k!"compositeNetworkRepresentations", path := (.all k!"COMPOSITE-NETWORK-REPRESENTATIONS" (.all k!"COMPOSITE-NETWORK-REPRESENTATION" .nil)), item := (.objs [(k!"COMPOSITE-NETWORK-REPRESENTATION", k!"getCompositeNetworkRepresentation_CompositeNetworkRepresentation")]) },
   /- 4445 -/ { field := k!"dataElementRef", path := (.first [k!"DATA-ELEMENT-REF"] .nil), item := (.prim .ref) },
   /- 4446 -/ { field := k!"handleOutOfRange", path := (.first [k!"HANDLE-OUT-OF-RANGE"] .nil), item := (.prim .lit) },
   /- 4447 -/ { field := k!"networkRepresentation", path := (.first [k!"NETWORK-REPRESENTATION"] .nil), item := (.objs [(k!"NETWORK-REPRESENTATION", k!"getSwDataDefProps_SwDataDefProps")]) },
   /- 4448 -/ { field := k!"transmissionAcknowledge", path := (.first [k!"TRANSMISSION-ACKNOWLEDGE"] .nil), item := (.objs [(k!"TRANSMISSION-ACKNOWLEDGE", k!"readTransmissionAcknowledgementRequest_TransmissionAcknowledgementRequest")]) },
   /- 4449 -/ { field := k!"transmissionProps", path := (.first [k!"TRANSMISSION-PROPS"] .nil), item := (.objs [(k!"TRANSMISSION-PROPS", k!"getTransmissionComSpecProps_TransmissionComSpecProps")]) },
   /- 4450 -/ { field := k!"usesEndToEndProtection", path := (.first [k!"USES-END-TO-END-PROTECTION"] .nil), item := (.prim .boolean) }]

/-- `getNonqueuedSenderComSpec`, `parser/arxml_parser.py:4452-4457` (the `NonqueuedSenderComSpec` it makes) -/
def getNonqueuedSenderComSpec_NonqueuedSenderComSpec : List RSlot :=
  /- 4454 -/ readSenderComSpec ++
  [/- 4455 -/ { field := k!"dataFilter", path := (.first [k!"DATA-FILTER"] .nil), item := (.objs [(k!"DATA-FILTER", k!"getDataFilter_DataFilter")]) },
   /- 4456 -/ { field := k!"initValue", path := (.first [k!"INIT-VALUE", 0] .nil), item := (.objs [(k!"APPLICATION-VALUE-SPECIFICATION", k!"getApplicationValueSpecification_ApplicationValueSpecification"), (k!"APPLICATION-RULE-BASED-VALUE-SPECIFICATION", k!"getApplicationRuleBasedValueSpecification_ApplicationRuleBasedValueSpecification"), (k!"COMPOSITE-RULE-BASED-VALUE-SPECIFICATION", k!"getCompositeRuleBasedValueSpecification_CompositeRuleBasedValueSpecification"), (k!"RECORD-VALUE-SPECIFICATION", k!"getRecordValueSpecification_RecordValueSpecification"), (k!"NUMERICAL-VALUE-SPECIFICATION", k!"getNumericalValueSpecification_NumericalValueSpecification"), (k!"ARRAY-VALUE-SPECIFICATION", k!"getArrayValueSpecification_ArrayValueSpecification"), (k!"TEXT-VALUE-SPECIFICATION", k!"getTextValueSpecification_TextValueSpecification"), (k!"CONSTANT-REFERENCE", k!"getConstantReference_ConstantReference")]) },
   /- 5392 -/ { field := 0, path := (.first [k!"INIT-VALUE", 0] .nil), item := (.guard [k!"APPLICATION-VALUE-SPECIFICATION", k!"APPLICATION-RULE-BASED-VALUE-SPECIFICATION", k!"COMPOSITE-RULE-BASED-VALUE-SPECIFICATION", k!"RECORD-VALUE-SPECIFICATION", k!"NUMERICAL-VALUE-SPECIFICATION", k!"ARRAY-VALUE-SPECIFICATION", k!"TEXT-VALUE-SPECIFICATION", k!"CONSTANT-REFERENCE"] .unbound) }]

/-- `getNonqueuedSenderComSpec`, `parser/arxml_parser.py:4452-4457` (the `NonqueuedSenderComSpec` it makes); with what ports check, `Components/__init__.py:312-380` -/
def getNonqueuedSenderComSpec_NonqueuedSenderComSpec_port : List RSlot :=
  aim k!"dataElementRef" t!"VARIABLE-DATA-PROTOTYPE" true (
  /- 4454 -/ readSenderComSpec ++
  [/- 4455 -/ { field := k!"dataFilter", path := (.first [k!"DATA-FILTER"] .nil), item := (.objs [(k!"DATA-FILTER", k!"getDataFilter_DataFilter")]) },
   /- 4456 -/ { field := k!"initValue", path := (.first [k!"INIT-VALUE", 0] .nil), item := (.objs [(k!"APPLICATION-VALUE-SPECIFICATION", k!"getApplicationValueSpecification_ApplicationValueSpecification"), (k!"APPLICATION-RULE-BASED-VALUE-SPECIFICATION", k!"getApplicationRuleBasedValueSpecification_ApplicationRuleBasedValueSpecification"), (k!"COMPOSITE-RULE-BASED-VALUE-SPECIFICATION", k!"getCompositeRuleBasedValueSpecification_CompositeRuleBasedValueSpecification"), (k!"RECORD-VALUE-SPECIFICATION", k!"getRecordValueSpecification_RecordValueSpecification"), (k!"NUMERICAL-VALUE-SPECIFICATION", k!"getNumericalValueSpecification_NumericalValueSpecification"), (k!"ARRAY-VALUE-SPECIFICATION", k!"getArrayValueSpecification_ArrayValueSpecification"), (k!"TEXT-VALUE-SPECIFICATION", k!"getTextValueSpecification_TextValueSpecification"), (k!"CONSTANT-REFERENCE", k!"getConstantReference_ConstantReference")]) },
   /- 5392 -/ { field := 0, path := (.first [k!"INIT-VALUE", 0] .nil), item := (.guard [k!"APPLICATION-VALUE-SPECIFICATION", k!"APPLICATION-RULE-BASED-VALUE-SPECIFICATION", k!"COMPOSITE-RULE-BASED-VALUE-SPECIFICATION", k!"RECORD-VALUE-SPECIFICATION", k!"NUMERICAL-VALUE-SPECIFICATION", k!"ARRAY-VALUE-SPECIFICATION", k!"TEXT-VALUE-SPECIFICATION", k!"CONSTANT-REFERENCE"] .unbound) }])

/-- `getNote`, `parser/arxml_parser.py:3678-3688` (the `Note` it makes) -/
def getNote_Note : List RSlot :=
  [/- 3683 -/ { field := k!"timestamp", path := .nil, item := (.attr k!"T" .raw) },
   /- 3683 -/ { field := k!"uuid", path := .nil, item := (.attr k!"UUID" .raw) },
   /- 3684 -/ { field := k!"label", path := (.first [k!"LABEL"] .nil), item := (.objs [(k!"LABEL", k!"getMultilanguageLongName_MultilanguageLongName")]) },
   /- 3685 -/ { field := k!"noteText", path := (.first [k!"NOTE-TEXT"] .nil), item := (.objs [(k!"NOTE-TEXT", k!"getDocumentationBlock_DocumentationBlock")]) },
   /- 3687 -/ { field := k!"noteType", path := .nil, item := (.attr k!"NOTETYPE" .lit) }]

/-- `getNumericalOrText`, `parser/arxml_parser.py:5273-5278` (the `NumericalOrText` it makes) -/
def getNumericalOrText_NumericalOrText : List RSlot :=
  [/- 5275 -/ { field := k!"timestamp", path := .nil, item := (.attr k!"T" .raw) },
   /- 5275 -/ { field := k!"uuid", path := .nil, item := (.attr k!"UUID" .raw) },
   /- 5276 -/ { field := k!"vf", path := (.first [k!"VF"] .nil), item := (.prim .numerical) },
   /- 5277 -/ { field := k!"vt", path := (.first [k!"VT"] .nil), item := (.prim .lit) }]

/-- `getNumericalValueSpecification`, `parser/arxml_parser.py:5343-5348` (the `NumericalValueSpecification` it makes) -/
def getNumericalValueSpecification_NumericalValueSpecification : List RSlot :=
  /- 5345 -/ readValueSpecification ++
  [/- 5346 -/ { field := k!"shortLabel", path := (.first [k!"SHORT-LABEL"] .nil), item := (.prim .lit) },
   /- 5347 -/ { field := k!"value", path := (.first [k!"VALUE"] .nil), item := (.prim .numerical) }]

/-- `getNvProvideComSpec`, `parser/arxml_parser.py:4536-4542` (the `NvProvideComSpec` it makes) -/
def getNvProvideComSpec_NvProvideComSpec : List RSlot :=
  /- 4538 -/ readPPortComSpec ++
  [/- 4539 -/ { field := k!"ramBlockInitValue", path := (.first [k!"RAM-BLOCK-INIT-VALUE", 0] .nil), item := (.objs [(k!"APPLICATION-VALUE-SPECIFICATION", k!"getApplicationValueSpecification_ApplicationValueSpecification"), (k!"APPLICATION-RULE-BASED-VALUE-SPECIFICATION", k!"getApplicationRuleBasedValueSpecification_ApplicationRuleBasedValueSpecification"), (k!"COMPOSITE-RULE-BASED-VALUE-SPECIFICATION", k!"getCompositeRuleBasedValueSpecification_CompositeRuleBasedValueSpecification"), (k!"RECORD-VALUE-SPECIFICATION", k!"getRecordValueSpecification_RecordValueSpecification"), (k!"NUMERICAL-VALUE-SPECIFICATION", k!"getNumericalValueSpecification_NumericalValueSpecification"), (k!"ARRAY-VALUE-SPECIFICATION", k!"getArrayValueSpecification_ArrayValueSpecification"), (k!"TEXT-VALUE-SPECIFICATION", k!"getTextValueSpecification_TextValueSpecification"), (k!"CONSTANT-REFERENCE", k!"getConstantReference_ConstantReference")]) },
   /- 4540 -/ { field := k!"romBlockInitValue", path := (.first [k!"ROM-BLOCK-INIT-VALUE", 0] .nil), item := (.objs [(k!"APPLICATION-VALUE-SPECIFICATION", k!"getApplicationValueSpecification_ApplicationValueSpecification"), (k!"APPLICATION-RULE-BASED-VALUE-SPECIFICATION", k!"getApplicationRuleBasedValueSpecification_ApplicationRuleBasedValueSpecification"), (k!"COMPOSITE-RULE-BASED-VALUE-SPECIFICATION", k!"getCompositeRuleBasedValueSpecification_CompositeRuleBasedValueSpecification"), (k!"RECORD-VALUE-SPECIFICATION", k!"getRecordValueSpecification_RecordValueSpecification"), (k!"NUMERICAL-VALUE-SPECIFICATION", k!"getNumericalValueSpecification_NumericalValueSpecification"), (k!"ARRAY-VALUE-SPECIFICATION", k!"getArrayValueSpecification_ArrayValueSpecification"), (k!"TEXT-VALUE-SPECIFICATION", k!"getTextValueSpecification_TextValueSpecification"), (k!"CONSTANT-REFERENCE", k!"getConstantReference_ConstantReference")]) },
   /- 4541 -/ { field := k!"variableRef", path := (.first [k!"VARIABLE-REF"] .nil), item := (.prim .ref) },
   /- 5392 -/ { field := 0, path := (.first [k!"RAM-BLOCK-INIT-VALUE", 0] .nil), item := (.guard [k!"APPLICATION-VALUE-SPECIFICATION", k!"APPLICATION-RULE-BASED-VALUE-SPECIFICATION", k!"COMPOSITE-RULE-BASED-VALUE-SPECIFICATION", k!"RECORD-VALUE-SPECIFICATION", k!"NUMERICAL-VALUE-SPECIFICATION", k!"ARRAY-VALUE-SPECIFICATION", k!"TEXT-VALUE-SPECIFICATION", k!"CONSTANT-REFERENCE"] .unbound) },
   /- 5392 -/ { field := 0, path := (.first [k!"ROM-BLOCK-INIT-VALUE", 0] .nil), item := (.guard [k!"APPLICATION-VALUE-SPECIFICATION", k!"APPLICATION-RULE-BASED-VALUE-SPECIFICATION", k!"COMPOSITE-RULE-BASED-VALUE-SPECIFICATION", k!"RECORD-VALUE-SPECIFICATION", k!"NUMERICAL-VALUE-SPECIFICATION", k!"ARRAY-VALUE-SPECIFICATION", k!"TEXT-VALUE-SPECIFICATION", k!"CONSTANT-REFERENCE"] .unbound) }]

/-- `getNvRequireComSpec`, `parser/arxml_parser.py:4274-4279` (the `NvRequireComSpec` it makes) -/
def getNvRequireComSpec_NvRequireComSpec : List RSlot :=
  /- 4276 -/ readPPortComSpec ++
  [/- 4277 -/ { field := k!"initValue", path := (.first [k!"INIT-VALUE", 0] .nil), item := (.objs [(k!"APPLICATION-VALUE-SPECIFICATION", k!"getApplicationValueSpecification_ApplicationValueSpecification"), (k!"APPLICATION-RULE-BASED-VALUE-SPECIFICATION", k!"getApplicationRuleBasedValueSpecification_ApplicationRuleBasedValueSpecification"), (k!"COMPOSITE-RULE-BASED-VALUE-SPECIFICATION", k!"getCompositeRuleBasedValueSpecification_CompositeRuleBasedValueSpecification"), (k!"RECORD-VALUE-SPECIFICATION", k!"getRecordValueSpecification_RecordValueSpecification"), (k!"NUMERICAL-VALUE-SPECIFICATION", k!"getNumericalValueSpecification_NumericalValueSpecification"), (k!"ARRAY-VALUE-SPECIFICATION", k!"getArrayValueSpecification_ArrayValueSpecification"), (k!"TEXT-VALUE-SPECIFICATION", k!"getTextValueSpecification_TextValueSpecification"), (k!"CONSTANT-REFERENCE", k!"getConstantReference_ConstantReference")]) },
   /- 4278 -/ { field := k!"variableRef", path := (.first [k!"VARIABLE-REF"] .nil), item := (.prim .ref) },
   /- 5392 -/ { field := 0, path := (.first [k!"INIT-VALUE", 0] .nil), item := (.guard [k!"APPLICATION-VALUE-SPECIFICATION", k!"APPLICATION-RULE-BASED-VALUE-SPECIFICATION", k!"COMPOSITE-RULE-BASED-VALUE-SPECIFICATION", k!"RECORD-VALUE-SPECIFICATION", k!"NUMERICAL-VALUE-SPECIFICATION", k!"ARRAY-VALUE-SPECIFICATION", k!"TEXT-VALUE-SPECIFICATION", k!"CONSTANT-REFERENCE"] .unbound) }]

/-- `getNvRequireComSpec`, `parser/arxml_parser.py:4274-4279` (the `NvRequireComSpec` it makes); with what ports check, `Components/__init__.py:312-380` -/
def getNvRequireComSpec_NvRequireComSpec_port : List RSlot :=
  /- 4276 -/ readPPortComSpec ++
  [/- 4277 -/ { field := k!"initValue", path := (.first [k!"INIT-VALUE", 0] .nil), item := (.objs [(k!"APPLICATION-VALUE-SPECIFICATION", k!"getApplicationValueSpecification_ApplicationValueSpecification"), (k!"APPLICATION-RULE-BASED-VALUE-SPECIFICATION", k!"getApplicationRuleBasedValueSpecification_ApplicationRuleBasedValueSpecification"), (k!"COMPOSITE-RULE-BASED-VALUE-SPECIFICATION", k!"getCompositeRuleBasedValueSpecification_CompositeRuleBasedValueSpecification"), (k!"RECORD-VALUE-SPECIFICATION", k!"getRecordValueSpecification_RecordValueSpecification"), (k!"NUMERICAL-VALUE-SPECIFICATION", k!"getNumericalValueSpecification_NumericalValueSpecification"), (k!"ARRAY-VALUE-SPECIFICATION", k!"getArrayValueSpecification_ArrayValueSpecification"), (k!"TEXT-VALUE-SPECIFICATION", k!"getTextValueSpecification_TextValueSpecification"), (k!"CONSTANT-REFERENCE", k!"getConstantReference_ConstantReference")]) },
   /- 4278 -/ { field := k!"variableRef", path := (.first [k!"VARIABLE-REF"] .nil), item := (.prim .ref) },
   /- 5392 -/ { field := 0, path := (.first [k!"INIT-VALUE", 0] .nil), item := (.guard [k!"APPLICATION-VALUE-SPECIFICATION", k!"APPLICATION-RULE-BASED-VALUE-SPECIFICATION", k!"COMPOSITE-RULE-BASED-VALUE-SPECIFICATION", k!"RECORD-VALUE-SPECIFICATION", k!"NUMERICAL-VALUE-SPECIFICATION", k!"ARRAY-VALUE-SPECIFICATION", k!"TEXT-VALUE-SPECIFICATION", k!"CONSTANT-REFERENCE"] .unbound) },
   /- 4324 -/ { field := 0, path := .nil, item := (.crash .valueError) }]

/-- `getParameterInAtomicSWCTypeInstanceRef`, `parser/arxml_parser.py:3072-3082` (the `ParameterInAtomicSWCTypeInstanceRef` it makes) -/
def getParameterInAtomicSWCTypeInstanceRef_ParameterInAtomicSWCTypeInstanceRef : List RSlot :=
  [/- 3078 -/ { field := k!"contextDataPrototypeRefs", path := (.all k!"CONTEXT-DATA-PROTOTYPE-REF" .nil), item := (.prim .ref) },
   /- 3079 -/ { field := k!"portPrototypeRef", path := (.first [k!"PORT-PROTOTYPE-REF"] .nil), item := (.prim .ref) },
   /- 3080 -/ { field := k!"rootParameterDataPrototypeRef", path := (.first [k!"ROOT-PARAMETER-DATA-PROTOTYPE-REF"] .nil), item := (.prim .ref) },
   /- 3081 -/ { field := k!"targetDataPrototypeRef", path := (.first [k!"TARGET-DATA-PROTOTYPE-REF"] .nil), item := (.prim .ref) }]

/-- `getParameterProvideComSpec`, `parser/arxml_parser.py:4509-4514` (the `ParameterProvideComSpec` it makes) -/
def getParameterProvideComSpec_ParameterProvideComSpec : List RSlot :=
  /- 4511 -/ readPPortComSpec ++
  [/- 4512 -/ { field := k!"initValue", path := (.first [k!"INIT-VALUE", 0] .nil), item := (.objs [(k!"APPLICATION-VALUE-SPECIFICATION", k!"getApplicationValueSpecification_ApplicationValueSpecification"), (k!"APPLICATION-RULE-BASED-VALUE-SPECIFICATION", k!"getApplicationRuleBasedValueSpecification_ApplicationRuleBasedValueSpecification"), (k!"COMPOSITE-RULE-BASED-VALUE-SPECIFICATION", k!"getCompositeRuleBasedValueSpecification_CompositeRuleBasedValueSpecification"), (k!"RECORD-VALUE-SPECIFICATION", k!"getRecordValueSpecification_RecordValueSpecification"), (k!"NUMERICAL-VALUE-SPECIFICATION", k!"getNumericalValueSpecification_NumericalValueSpecification"), (k!"ARRAY-VALUE-SPECIFICATION", k!"getArrayValueSpecification_ArrayValueSpecification"), (k!"TEXT-VALUE-SPECIFICATION", k!"getTextValueSpecification_TextValueSpecification"), (k!"CONSTANT-REFERENCE", k!"getConstantReference_ConstantReference")]) },
   /- 4513 -/ { field := k!"parameterRef", path := (.first [k!"PARAMETER-REF"] .nil), item := (.prim .ref) },
   /- 5392 -/ { field := 0, path := (.first [k!"INIT-VALUE", 0] .nil), item := (.guard [k!"APPLICATION-VALUE-SPECIFICATION", k!"APPLICATION-RULE-BASED-VALUE-SPECIFICATION", k!"COMPOSITE-RULE-BASED-VALUE-SPECIFICATION", k!"RECORD-VALUE-SPECIFICATION", k!"NUMERICAL-VALUE-SPECIFICATION", k!"ARRAY-VALUE-SPECIFICATION", k!"TEXT-VALUE-SPECIFICATION", k!"CONSTANT-REFERENCE"] .unbound) }]

/-- `getParameterRequireComSpec`, `parser/arxml_parser.py:4267-4272` (the `ParameterRequireComSpec` it makes) -/
def getParameterRequireComSpec_ParameterRequireComSpec : List RSlot :=
  /- 4269 -/ readPPortComSpec ++
  [/- 4270 -/ { field := k!"initValue", path := (.first [k!"INIT-VALUE", 0] .nil), item := (.objs [(k!"APPLICATION-VALUE-SPECIFICATION", k!"getApplicationValueSpecification_ApplicationValueSpecification"), (k!"APPLICATION-RULE-BASED-VALUE-SPECIFICATION", k!"getApplicationRuleBasedValueSpecification_ApplicationRuleBasedValueSpecification"), (k!"COMPOSITE-RULE-BASED-VALUE-SPECIFICATION", k!"getCompositeRuleBasedValueSpecification_CompositeRuleBasedValueSpecification"), (k!"RECORD-VALUE-SPECIFICATION", k!"getRecordValueSpecification_RecordValueSpecification"), (k!"NUMERICAL-VALUE-SPECIFICATION", k!"getNumericalValueSpecification_NumericalValueSpecification"), (k!"ARRAY-VALUE-SPECIFICATION", k!"getArrayValueSpecification_ArrayValueSpecification"), (k!"TEXT-VALUE-SPECIFICATION", k!"getTextValueSpecification_TextValueSpecification"), (k!"CONSTANT-REFERENCE", k!"getConstantReference_ConstantReference")]) },
   /- 4271 -/ { field := k!"parameterRef", path := (.first [k!"PARAMETER-REF"] .nil), item := (.prim .ref) },
   /- 5392 -/ { field := 0, path := (.first [k!"INIT-VALUE", 0] .nil), item := (.guard [k!"APPLICATION-VALUE-SPECIFICATION", k!"APPLICATION-RULE-BASED-VALUE-SPECIFICATION", k!"COMPOSITE-RULE-BASED-VALUE-SPECIFICATION", k!"RECORD-VALUE-SPECIFICATION", k!"NUMERICAL-VALUE-SPECIFICATION", k!"ARRAY-VALUE-SPECIFICATION", k!"TEXT-VALUE-SPECIFICATION", k!"CONSTANT-REFERENCE"] .unbound) }]

/-- `getParameterRequireComSpec`, `parser/arxml_parser.py:4267-4272` (the `ParameterRequireComSpec` it makes); with what ports check, `Components/__init__.py:312-380` -/
def getParameterRequireComSpec_ParameterRequireComSpec_port : List RSlot :=
  aim k!"parameterRef" t!"PARAMETER-DATA-PROTOTYPE" false (
  /- 4269 -/ readPPortComSpec ++
  [/- 4270 -/ { field := k!"initValue", path := (.first [k!"INIT-VALUE", 0] .nil), item := (.objs [(k!"APPLICATION-VALUE-SPECIFICATION", k!"getApplicationValueSpecification_ApplicationValueSpecification"), (k!"APPLICATION-RULE-BASED-VALUE-SPECIFICATION", k!"getApplicationRuleBasedValueSpecification_ApplicationRuleBasedValueSpecification"), (k!"COMPOSITE-RULE-BASED-VALUE-SPECIFICATION", k!"getCompositeRuleBasedValueSpecification_CompositeRuleBasedValueSpecification"), (k!"RECORD-VALUE-SPECIFICATION", k!"getRecordValueSpecification_RecordValueSpecification"), (k!"NUMERICAL-VALUE-SPECIFICATION", k!"getNumericalValueSpecification_NumericalValueSpecification"), (k!"ARRAY-VALUE-SPECIFICATION", k!"getArrayValueSpecification_ArrayValueSpecification"), (k!"TEXT-VALUE-SPECIFICATION", k!"getTextValueSpecification_TextValueSpecification"), (k!"CONSTANT-REFERENCE", k!"getConstantReference_ConstantReference")]) },
   /- 4271 -/ { field := k!"parameterRef", path := (.first [k!"PARAMETER-REF"] .nil), item := (.prim .ref) },
   /- 5392 -/ { field := 0, path := (.first [k!"INIT-VALUE", 0] .nil), item := (.guard [k!"APPLICATION-VALUE-SPECIFICATION", k!"APPLICATION-RULE-BASED-VALUE-SPECIFICATION", k!"COMPOSITE-RULE-BASED-VALUE-SPECIFICATION", k!"RECORD-VALUE-SPECIFICATION", k!"NUMERICAL-VALUE-SPECIFICATION", k!"ARRAY-VALUE-SPECIFICATION", k!"TEXT-VALUE-SPECIFICATION", k!"CONSTANT-REFERENCE"] .unbound) }])

/-- `getQueuedReceiverComSpec`, `parser/arxml_parser.py:4281-4286` (the `QueuedReceiverComSpec` it makes) -/
def getQueuedReceiverComSpec_QueuedReceiverComSpec : List RSlot :=
  [/- 4283 -/ { field := k!"timestamp", path := .nil, item := (.attr k!"T" .raw) },
   /- 4283 -/ { field := k!"uuid", path := .nil, item := (.attr k!"UUID" .raw) }] ++
  /- 4284 -/ readReceiverComSpec ++
  [/- 4285 -/ { field := k!"queueLength", path := (.first [k!"QUEUE-LENGTH"] .nil), item := (.prim .numerical) }]

/-- `getQueuedSenderComSpec`, `parser/arxml_parser.py:4516-4519` (the `QueuedSenderComSpec` it makes) -/
def getQueuedSenderComSpec_QueuedSenderComSpec : List RSlot :=
  /- 4518 -/ readSenderComSpec

/-- `getRModeInAtomicSwcInstanceRef`, `parser/arxml_parser.py:3384-3390` (the `RModeInAtomicSwcInstanceRef` it makes) -/
def getRModeInAtomicSwcInstanceRef_RModeInAtomicSwcInstanceRef : List RSlot :=
  [/- 3386 -/ { field := k!"baseRef", path := (.first [k!"BASE-REF"] .nil), item := (.prim .ref) },
   /- 3387 -/ { field := k!"contextPortRef", path := (.first [k!"CONTEXT-PORT-REF"] .nil), item := (.prim .ref) },
   /- 3388 -/ { field := k!"contextModeDeclarationGroupPrototypeRef", path := (.first [k!"CONTEXT-MODE-DECLARATION-GROUP-PROTOTYPE-REF"] .nil), item := (.prim .ref) },
   /- 3389 -/ { field := k!"targetModeDeclarationRef", path := (.first [k!"TARGET-MODE-DECLARATION-REF"] .nil), item := (.prim .ref) }]

/-- `getReceptionComSpecProps`, `parser/arxml_parser.py:4175-4183` (the `ReceptionComSpecProps` it makes) -/
def getReceptionComSpecProps_ReceptionComSpecProps : List RSlot :=
  [/- 4180 -/ { field := k!"timestamp", path := .nil, item := (.attr k!"T" .raw) },
   /- 4180 -/ { field := k!"uuid", path := .nil, item := (.attr k!"UUID" .raw) },
   /- 4181 -/ { field := k!"dataUpdatePeriod", path := (.first [k!"DATA-UPDATE-PERIOD"] .nil), item := (.prim .time) },
   /- 4182 -/ { field := k!"timeout", path := (.first [k!"TIMEOUT"] .nil), item := (.prim .time) }]

/-- `readRecordValueSpecificationFields`, `parser/arxml_parser.py:5395-5397` -/
def readRecordValueSpecificationFields : List RSlot :=
  [/- 5397 -/ { field := k!"fields", path := (.all k!"FIELDS" (.all 0 .nil)), item := (.objs [(k!"APPLICATION-VALUE-SPECIFICATION", k!"getApplicationValueSpecification_ApplicationValueSpecification"), (k!"APPLICATION-RULE-BASED-VALUE-SPECIFICATION", k!"getApplicationRuleBasedValueSpecification_ApplicationRuleBasedValueSpecification"), (k!"COMPOSITE-RULE-BASED-VALUE-SPECIFICATION", k!"getCompositeRuleBasedValueSpecification_CompositeRuleBasedValueSpecification"), (k!"RECORD-VALUE-SPECIFICATION", k!"getRecordValueSpecification_RecordValueSpecification"), (k!"NUMERICAL-VALUE-SPECIFICATION", k!"getNumericalValueSpecification_NumericalValueSpecification"), (k!"ARRAY-VALUE-SPECIFICATION", k!"getArrayValueSpecification_ArrayValueSpecification"), (k!"TEXT-VALUE-SPECIFICATION", k!"getTextValueSpecification_TextValueSpecification"), (k!"CONSTANT-REFERENCE", k!"getConstantReference_ConstantReference")]) },
   /- 5392 -/ { field := 0, path := (.all k!"FIELDS" (.all 0 .nil)), item := (.guard [k!"APPLICATION-VALUE-SPECIFICATION", k!"APPLICATION-RULE-BASED-VALUE-SPECIFICATION", k!"COMPOSITE-RULE-BASED-VALUE-SPECIFICATION", k!"RECORD-VALUE-SPECIFICATION", k!"NUMERICAL-VALUE-SPECIFICATION", k!"ARRAY-VALUE-SPECIFICATION", k!"TEXT-VALUE-SPECIFICATION", k!"CONSTANT-REFERENCE"] .unbound) }]

/-- `getRecordValueSpecification`, `parser/arxml_parser.py:5399-5403` (the `RecordValueSpecification` it makes) -/
def getRecordValueSpecification_RecordValueSpecification : List RSlot :=
  /- 5401 -/ readValueSpecification ++
  /- 5402 -/ readRecordValueSpecificationFields

/-- `getRequestResponseDelay`, `parser/arxml_parser.py:6073-6080` (the `RequestResponseDelay` it makes) -/
def getRequestResponseDelay_RequestResponseDelay : List RSlot :=
  [/- 6078 -/ { field := k!"maxValue", path := (.first [k!"MAX-VALUE"] .nil), item := (.prim .time) },
   /- 6079 -/ { field := k!"minValue", path := (.first [k!"MIN-VALUE"] .nil), item := (.prim .time) }]

end Verif.Gen.R
