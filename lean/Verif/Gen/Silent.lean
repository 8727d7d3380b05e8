import Verif.Model.Bst
-- generated by tools/gen_silent.py; do not edit
namespace Verif.Gen
open Verif

def silentTags00 : Bst (Unit) :=
 (.node (.node (.node (.node (.node (.node .nil
      k!"P" ()
      .nil)
     k!"DEF" ()
     .nil)
    k!"SDG" ()
    (.node .nil
     k!"VTF" ()
     .nil))
   k!"CODE" ()
   (.node (.node .nil
     k!"DESC" ()
     .nil)
    k!"ITEM" ()
    (.node .nil
     k!"LIST" ()
     .nil)))
  k!"NOTE" ()
  (.node (.node (.node (.node .nil
      k!"PDUS" ()
      .nil)
     k!"SDGS" ()
     .nil)
    k!"TEXT" ()
    (.node .nil
     k!"UNIT" ()
     .nil))
   k!"VLAN" ()
   (.node (.node .nil
     k!"IDENT" ()
     .nil)
    k!"LABEL" ()
    (.node .nil
     k!"N-PDU" ()
     .nil))))
 k!"PORTS" ()
 (.node (.node (.node (.node (.node .nil
      k!"TRACE" ()
      .nil)
     k!"CHANGE" ()
     .nil)
    k!"EVENTS" ()
    (.node .nil
     k!"FIELDS" ()
     .nil))
   k!"FIGURE" ()
   (.node (.node .nil
     k!"FILTER" ()
     .nil)
    k!"LINKER" ()
    (.node .nil
     k!"NM-ECU" ()
     .nil)))
  k!"NM-PDU" ()
  (.node (.node (.node .nil
     k!"REASON" ()
     .nil)
    k!"REMARK" ()
    (.node .nil
     k!"SYSTEM" ()
     .nil))
   k!"TCP-TP" ()
   (.node (.node .nil
     k!"UDP-TP" ()
     .nil)
    k!"USAGES" ()
    (.node .nil
     k!"CHAPTER" ()
     .nil)))))

def silentTags01 : Bst (Unit) :=
 (.node (.node (.node (.node (.node (.node .nil
      k!"ELEMENT" ()
      .nil)
     k!"ENTITYS" ()
     .nil)
    k!"FORMULA" ()
    (.node .nil
     k!"GATEWAY" ()
     .nil))
   k!"GRAPHIC" ()
   (.node (.node .nil
     k!"HW-TYPE" ()
     .nil)
    k!"KEYWORD" ()
    (.node .nil
     k!"LINKERS" ()
     .nil)))
  k!"TOPIC-1" ()
  (.node (.node (.node .nil
     k!"TP-ECUS" ()
     .nil)
    k!"COMPILER" ()
    (.node .nil
     k!"CONTEXTS" ()
     .nil))
   k!"DATA-IDS" ()
   (.node (.node .nil
     k!"DEF-ITEM" ()
     .nil)
    k!"DEF-LIST" ()
    (.node .nil
     k!"ELEMENTS" ()
     .nil))))
 k!"FLAT-MAP" ()
 (.node (.node (.node (.node (.node .nil
      k!"I-SIGNAL" ()
      .nil)
     k!"KEYWORDS" ()
     .nil)
    k!"LITERALS" ()
    (.node .nil
     k!"MAPPINGS" ()
     .nil))
   k!"MC-GROUP" ()
   (.node (.node .nil
     k!"NM-NODES" ()
     .nil)
    k!"NV-DATAS" ()
    (.node .nil
     k!"TEX-MATH" ()
     .nil)))
  k!"TP-NODES" ()
  (.node (.node (.node .nil
     k!"USE-CASE" ()
     .nil)
    k!"VERBATIM" ()
    (.node .nil
     k!"ARGUMENTS" ()
     .nil))
   k!"CAN-FRAME" ()
   (.node (.node .nil
     k!"COMPILERS" ()
     .nil)
    k!"CONFLICTS" ()
    (.node .nil
     k!"DATA-IREF" ()
     .nil)))))

def silentTags02 : Bst (Unit) :=
 .node silentTags00 k!"CHOICES" () silentTags01

def silentTags03 : Bst (Unit) :=
 (.node (.node (.node (.node (.node (.node .nil
      k!"ECUC-COND" ()
      .nil)
     k!"INSTANCES" ()
     .nil)
    k!"L-GRAPHIC" ()
    (.node .nil
     k!"LONG-NAME" ()
     .nil))
   k!"MODE-IREF" ()
   (.node (.node .nil
     k!"NM-CONFIG" ()
     .nil)
    k!"NODE-NAME" ()
    (.node .nil
     k!"NOTE-TEXT" ()
     .nil)))
  k!"RAM-BLOCK" ()
  (.node (.node (.node .nil
     k!"RATIONALE" ()
     .nil)
    k!"ROM-BLOCK" ()
    (.node .nil
     k!"RPT-READS" ()
     .nil))
   k!"RUNNABLES" ()
   (.node (.node .nil
     k!"ADMIN-DATA" ()
     .nil)
    k!"ANNOTATION" ()
    (.node .nil
     k!"AR-PACKAGE" ()
     .nil))))
 k!"ARGUMENTSS" ()
 (.node (.node (.node (.node (.node .nil
      k!"CAN-TP-ECU" ()
      .nil)
     k!"COLLECTION" ()
     .nil)
    k!"COMPONENTS" ()
    (.node .nil
     k!"CONNECTORS" ()
     .nil))
   k!"CONTAINERS" ()
   (.node (.node .nil
     k!"DERIVATION" ()
     .nil)
    k!"ECUC-QUERY" ()
    (.node .nil
     k!"FRAME-PORT" ()
     .nil)))
  k!"GENERIC-TP" ()
  (.node (.node (.node .nil
     k!"HW-ELEMENT" ()
     .nil)
    k!"I-PDU-PORT" ()
    (.node .nil
     k!"INIT-EVENT" ()
     .nil))
   k!"ITEM-LABEL" ()
   (.node (.node .nil
     k!"LIN-MASTER" ()
     .nil)
    k!"MC-SUPPORT" ()
    (.node .nil
     k!"MODE-GROUP" ()
     .nil)))))

def silentTags04 : Bst (Unit) :=
 (.node (.node (.node (.node (.node (.node .nil
      k!"NM-IF-ECUS" ()
      .nil)
     k!"OPERATIONS" ()
     .nil)
    k!"PARAMETERS" ()
    (.node .nil
     k!"PORT-GROUP" ()
     .nil))
   k!"REFERENCES" ()
   (.node (.node .nil
     k!"RPT-WRITES" ()
     .nil)
    k!"SW-SYSCOND" ()
    (.node .nil
     k!"SWC-TIMING" ()
     .nil)))
  k!"TRACE-REFS" ()
  (.node (.node (.node .nil
     k!"UDP-NM-ECU" ()
     .nil)
    k!"VALUE-IREF" ()
    (.node .nil
     k!"VALUE-SPEC" ()
     .nil))
   k!"WAIT-POINT" ()
   (.node (.node .nil
     k!"ACK-REQUEST" ()
     .nil)
    k!"ANNOTATIONS" ()
    (.node .nil
     k!"AR-PACKAGES" ()
     .nil))))
 k!"CALL-POINTS" ()
 (.node (.node (.node (.node (.node .nil
      k!"CAN-CLUSTER" ()
      .nil)
     k!"CAN-NM-NODE" ()
     .nil)
    k!"CAN-TP-NODE" ()
    (.node .nil
     k!"COMPU-CONST" ()
     .nil))
   k!"COMPU-SCALE" ()
   (.node (.node .nil
     k!"DATA-CONSTR" ()
     .nil)
    k!"DATA-FILTER" ()
    (.node .nil
     k!"DESCRIPTION" ()
     .nil)))
  k!"ECU-MAPPING" ()
  (.node (.node (.node .nil
     k!"ECUC-QUERYS" ()
     .nil)
    k!"ECUC-VALUES" ()
    (.node .nil
     k!"HEAP-USAGES" ()
     .nil))
   k!"HW-CATEGORY" ()
   (.node (.node .nil
     k!"KEYWORD-SET" ()
     .nil)
    k!"LIN-CLUSTER" ()
    (.node .nil
     k!"LIN-TP-NODE" ()
     .nil)))))

def silentTags05 : Bst (Unit) :=
 .node silentTags03 k!"MODE-IREFS" () silentTags04

def silentTags06 : Bst (Unit) :=
 .node silentTags02 k!"DCM-I-PDU" () silentTags05

def silentTags07 : Bst (Unit) :=
 (.node (.node (.node (.node (.node (.node .nil
      k!"MODULE-REFS" ()
      .nil)
     k!"NM-CLUSTERS" ()
     .nil)
    k!"OUTER-PORTS" ()
    (.node .nil
     k!"PORT-GROUPS" ()
     .nil))
   k!"RETURN-TYPE" ()
   (.node (.node .nil
     k!"SDG-CAPTION" ()
     .nil)
    k!"SENDER-IREF" ()
    (.node .nil
     k!"STATIC-PART" ()
     .nil)))
  k!"SW-CARB-DOC" ()
  (.node (.node (.node .nil
     k!"SW-MAPPINGS" ()
     .nil)
    k!"TCP-TP-PORT" ()
    (.node .nil
     k!"TIME-OFFSET" ()
     .nil))
   k!"TIME-PERIOD" ()
   (.node (.node .nil
     k!"TP-ADDRESSS" ()
     .nil)
    k!"TP-CHANNELS" ()
    (.node .nil
     k!"UDP-NM-NODE" ()
     .nil))))
 k!"UDP-TP-PORT" ()
 (.node (.node (.node (.node (.node .nil
      k!"WAIT-POINTS" ()
      .nil)
     k!"ACCESS-COUNT" ()
     .nil)
    k!"AR-PARAMETER" ()
    (.node .nil
     k!"CHECKPOINTSS" ()
     .nil))
   k!"COMPU-METHOD" ()
   (.node (.node .nil
     k!"COMPU-SCALES" ()
     .nil)
    k!"DEPENDENCIES" ()
    (.node .nil
     k!"DO-IP-ENTITY" ()
     .nil)))
  k!"DOC-REVISION" ()
  (.node (.node (.node .nil
     k!"DYNAMIC-PART" ()
     .nil)
    k!"ELEMENT-REFS" ()
    (.node .nil
     k!"FEATURE-IREF" ()
     .nil))
   k!"GENERIC-MATH" ()
   (.node (.node .nil
     k!"HW-PIN-GROUP" ()
     .nil)
    k!"I-PDU-TIMING" ()
    (.node .nil
     k!"INTRODUCTION" ()
     .nil)))))

def silentTags08 : Bst (Unit) :=
 (.node (.node (.node (.node (.node (.node .nil
      k!"LABELED-LIST" ()
      .nil)
     k!"MODE-MAPPING" ()
     .nil)
    k!"MODIFICATION" ()
    (.node .nil
     k!"MSR-QUERY-P1" ()
     .nil))
   k!"MSR-QUERY-P2" ()
   (.node (.node .nil
     k!"PERIOD-BEGIN" ()
     .nil)
    k!"PHYS-CONSTRS" ()
    (.node .nil
     k!"READ-NV-DATA" ()
     .nil)))
  k!"REPLACE-WITH" ()
  (.node (.node (.node .nil
     k!"SCALE-CONSTR" ()
     .nil)
    k!"SO-AD-CONFIG" ()
    (.node .nil
     k!"STACK-USAGES" ()
     .nil))
   k!"STATIC-PARTS" ()
   (.node (.node .nil
     k!"SUB-ELEMENTS" ()
     .nil)
    k!"SW-ARRAYSIZE" ()
    (.node .nil
     k!"SW-BASE-TYPE" ()
     .nil))))
 k!"SW-TEST-DESC" ()
 (.node (.node (.node (.node (.node .nil
      k!"SYMBOL-PROPS" ()
      .nil)
     k!"TABLE-ENTRYS" ()
     .nil)
    k!"TARGET-I-PDU" ()
    (.node .nil
     k!"TIMING-EVENT" ()
     .nil))
   k!"TRIGGER-IREF" ()
   (.node (.node .nil
     k!"TYPE-MAPPING" ()
     .nil)
    k!"VALUE-ACCESS" ()
    (.node .nil
     k!"ACCESS-COUNTS" ()
     .nil)))
  k!"BSW-MGR-NEEDS" ()
  (.node (.node (.node .nil
     k!"BULK-NV-BLOCK" ()
     .nil)
    k!"CAN-TP-CONFIG" ()
    (.node .nil
     k!"CHAPTER-MODEL" ()
     .nil))
   k!"COUPLING-PORT" ()
   (.node (.node .nil
     k!"CYCLIC-TIMING" ()
     .nil)
    k!"DATA-ELEMENTS" ()
    (.node .nil
     k!"DATA-MAPPINGS" ()
     .nil)))))

def silentTags09 : Bst (Unit) :=
 .node silentTags07 k!"LABELED-ITEM" () silentTags08

def silentTags10 : Bst (Unit) :=
 (.node (.node (.node (.node (.node (.node .nil
      k!"DOC-REVISIONS" ()
      .nil)
     k!"DOCUMENTATION" ()
     .nil)
    k!"DYNAMIC-PARTS" ()
    (.node .nil
     k!"EVENT-HANDLER" ()
     .nil))
   k!"FLEXRAY-FIFOS" ()
   (.node (.node .nil
     k!"FLEXRAY-FRAME" ()
     .nil)
    k!"HW-PIN-GROUPS" ()
    (.node .nil
     k!"I-PDU-MAPPING" ()
     .nil)))
  k!"I-SIGNAL-PORT" ()
  (.node (.node (.node .nil
     k!"I-SIGNAL-REFS" ()
     .nil)
    k!"IDS-MGR-NEEDS" ()
    (.node .nil
     k!"INDENT-SAMPLE" ()
     .nil))
   k!"INVALID-VALUE" ()
   (.node (.node .nil
     k!"ITEM-CONTENTS" ()
     .nil)
    k!"LIN-TP-CONFIG" ()
    (.node .nil
     k!"MODIFICATIONS" ()
     .nil))))
 k!"MSR-QUERY-ARG" ()
 (.node (.node (.node (.node (.node .nil
      k!"PROVIDER-IREF" ()
      .nil)
     k!"RECEIVER-IREF" ()
     .nil)
    k!"RECEIVER-REFS" ()
    (.node .nil
     k!"RPT-COMPONENT" ()
     .nil))
   k!"RUNTIME-ERROR" ()
   (.node (.node .nil
     k!"SCALE-CONSTRS" ()
     .nil)
    k!"SECURED-I-PDU" ()
    (.node .nil
     k!"SERVICE-NEEDS" ()
     .nil)))
  k!"SW-AXIS-CONTS" ()
  (.node (.node (.node .nil
     k!"SW-TEXT-PROPS" ()
     .nil)
    k!"SW-VALUE-CONT" ()
    (.node .nil
     k!"SYSTEM-SIGNAL" ()
     .nil))
   k!"TOPIC-CONTENT" ()
   (.node (.node .nil
     k!"ASSIGNED-DATAS" ()
     .nil)
    k!"ASSIGNED-PORTS" ()
    (.node .nil
     k!"CAN-NM-CLUSTER" ()
     .nil)))))

def silentTags11 : Bst (Unit) :=
 (.node (.node (.node (.node (.node (.node .nil
      k!"CAN-TP-CHANNEL" ()
      .nil)
     k!"COMPONENT-IREF" ()
     .nil)
    k!"COUPLING-PORTS" ()
    (.node .nil
     k!"DATA-TYPE-MAPS" ()
     .nil))
   k!"DEF-CALPRM-SET" ()
   (.node (.node .nil
     k!"DLT-USER-NEEDS" ()
     .nil)
    k!"ELEMENT-GROUPS" ()
    (.node .nil
     k!"ETHERNET-FRAME" ()
     .nil)))
  k!"EVENT-HANDLERS" ()
  (.node (.node (.node .nil
     k!"EXCLUSIVE-AREA" ()
     .nil)
    k!"FIBEX-ELEMENTS" ()
    (.node .nil
     k!"FIRST-ELEMENTS" ()
     .nil))
   k!"I-PDU-MAPPINGS" ()
   (.node (.node .nil
     k!"I-SIGNAL-GROUP" ()
     .nil)
    k!"I-SIGNAL-I-PDU" ()
    (.node .nil
     k!"I-SIGNAL-PROPS" ()
     .nil))))
 k!"J-1939-NM-NODE" ()
 (.node (.node (.node (.node (.node .nil
      k!"MEMORY-SECTION" ()
      .nil)
     k!"NV-BLOCK-NEEDS" ()
     .nil)
    k!"OPERATION-IREF" ()
    (.node .nil
     k!"PDU-TRIGGERING" ()
     .nil))
   k!"PHYSICAL-PROPS" ()
   (.node (.node .nil
     k!"PROVIDED-DATAS" ()
     .nil)
    k!"RECEIVER-IREFS" ()
    (.node .nil
     k!"REF-CALPRM-SET" ()
     .nil)))
  k!"REFERENCE-BASE" ()
  (.node (.node (.node .nil
     k!"REQUESTER-IREF" ()
     .nil)
    k!"REQUIRED-DATAS" ()
    (.node .nil
     k!"RP-IMPL-POLICY" ()
     .nil))
   k!"RPT-COMPONENTS" ()
   (.node (.node .nil
     k!"RTE-EVENT-IREF" ()
     .nil)
    k!"RULE-ARGUMENTS" ()
    (.node .nil
     k!"RX-NM-PDU-REFS" ()
     .nil)))))

def silentTags12 : Bst (Unit) :=
 .node silentTags10 k!"CAN-TP-ADDRESS" () silentTags11

def silentTags13 : Bst (Unit) :=
 .node silentTags09 k!"DATA-TYPE-MAP" () silentTags12

def silentTags14 : Bst (Unit) :=
 .node silentTags06 k!"MC-FUNCTION" () silentTags13

def silentTags15 : Bst (Unit) :=
 (.node (.node (.node (.node (.node (.node .nil
      k!"STATIC-MEMORYS" ()
      .nil)
     k!"STRUCTURED-REQ" ()
     .nil)
    k!"SUB-CONTAINERS" ()
    (.node .nil
     k!"SUB-GROUP-REFS" ()
     .nil))
   k!"SUCCESSOR-REFS" ()
   (.node (.node .nil
     k!"SW-ADDR-METHOD" ()
     .nil)
    k!"SW-CALPRM-AXIS" ()
    (.node .nil
     k!"SW-FEATURE-DEF" ()
     .nil)))
  k!"SW-SERVICE-ARG" ()
  (.node (.node (.node .nil
     k!"SW-SYSTEMCONST" ()
     .nil)
    k!"SW-VALUES-PHYS" ()
    (.node .nil
     k!"SYSTEM-MAPPING" ()
     .nil))
   k!"TP-CONNECTIONS" ()
   (.node (.node .nil
     k!"TX-NM-PDU-REFS" ()
     .nil)
    k!"UDP-NM-CLUSTER" ()
    (.node .nil
     k!"USED-LANGUAGES" ()
     .nil))))
 k!"ANNOTATION-TEXT" ()
 (.node (.node (.node (.node (.node .nil
      k!"CHAPTER-CONTENT" ()
      .nil)
     k!"CLASSIFICATIONS" ()
     .nil)
    k!"CLIENT-COM-SPEC" ()
    (.node .nil
     k!"COMM-CONNECTORS" ()
     .nil))
   k!"COMPONENT-IREFS" ()
   (.node (.node .nil
     k!"COMPU-NUMERATOR" ()
     .nil)
    k!"DO-IP-TP-CONFIG" ()
    (.node .nil
     k!"ECUC-MODULE-DEF" ()
     .nil)))
  k!"EXCLUSIVE-AREAS" ()
  (.node (.node (.node .nil
     k!"EXECUTION-TIMES" ()
     .nil)
    k!"EXPECTED-ENTRYS" ()
    (.node .nil
     k!"FIRST-MODE-REFS" ()
     .nil))
   k!"FLEXRAY-CLUSTER" ()
   (.node (.node .nil
     k!"FORMULA-CAPTION" ()
     .nil)
    k!"FRAME-PORT-REFS" ()
    (.node .nil
     k!"HW-ELEMENT-REFS" ()
     .nil)))))

def silentTags16 : Bst (Unit) :=
 (.node (.node (.node (.node (.node (.node .nil
      k!"I-SIGNAL-I-PDUS" ()
      .nil)
     k!"INNER-PORT-IREF" ()
     .nil)
    k!"ISSUED-TRIGGERS" ()
    (.node .nil
     k!"LIFE-CYCLE-INFO" ()
     .nil))
   k!"MEMORY-SECTIONS" ()
   (.node (.node .nil
     k!"MODE-GROUP-IREF" ()
     .nil)
    k!"MODE-TRANSITION" ()
    (.node .nil
     k!"MSR-QUERY-PROPS" ()
     .nil)))
  k!"NESTED-ELEMENTS" ()
  (.node (.node (.node .nil
     k!"NM-RANGE-CONFIG" ()
     .nil)
    k!"PDU-TRIGGERINGS" ()
    (.node .nil
     k!"PORT-API-OPTION" ()
     .nil))
   k!"PORT-ARG-VALUES" ()
   (.node (.node .nil
     k!"POSSIBLE-ERRORS" ()
     .nil)
    k!"PROVIDED-ENTRYS" ()
    (.node .nil
     k!"RECEPTION-PROPS" ()
     .nil))))
 k!"REFERENCE-BASES" ()
 (.node (.node (.node (.node (.node .nil
      k!"REVISION-LABELS" ()
      .nil)
     k!"RPT-IMPL-POLICY" ()
     .nil)
    k!"RTE-EVENT-IREFS" ()
    (.node .nil
     k!"RUNNABLE-ENTITY" ()
     .nil))
   k!"SCHEDULE-TABLES" ()
   (.node (.node .nil
     k!"SECOND-ELEMENTS" ()
     .nil)
    k!"SERVER-COM-SPEC" ()
    (.node .nil
     k!"SIGNAL-MAPPINGS" ()
     .nil)))
  k!"SOCKET-ADDRESSS" ()
  (.node (.node (.node .nil
     k!"SW-AXIS-GENERIC" ()
     .nil)
    k!"SW-AXIS-GROUPED" ()
    (.node .nil
     k!"SW-FEATURE-DESC" ()
     .nil))
   k!"SWC-BSW-MAPPING" ()
   (.node (.node .nil
     k!"TRACED-FAILURES" ()
     .nil)
    k!"TRANSIENT-FAULT" ()
    (.node .nil
     k!"UNIT-GROUP-REFS" ()
     .nil)))))

def silentTags17 : Bst (Unit) :=
 .node silentTags15 k!"I-PDU-PORT-REFS" () silentTags16

def silentTags18 : Bst (Unit) :=
 (.node (.node (.node (.node (.node (.node .nil
      k!"VARIATION-POINT" ()
      .nil)
     k!"VLAN-MEMBERSHIP" ()
     .nil)
    k!"WRITTEN-NV-DATA" ()
    (.node .nil
     k!"ACCESS-COUNT-SET" ()
     .nil))
   k!"AUTOSAR-VARIABLE" ()
   (.node (.node .nil
     k!"BACKGROUND-EVENT" ()
     .nil)
    k!"BSW-MODULE-ENTRY" ()
    (.node .nil
     k!"BSW-TIMING-EVENT" ()
     .nil)))
  k!"BUS-OFF-RECOVERY" ()
  (.node (.node (.node .nil
     k!"CODE-DESCRIPTORS" ()
     .nil)
    k!"COMM-CONTROLLERS" ()
    (.node .nil
     k!"CONDITION-ACCESS" ()
     .nil))
   k!"CONSTANT-MEMORYS" ()
   (.node (.node .nil
     k!"CONTROL-PNC-REFS" ()
     .nil)
    k!"DATA-CONSTR-RULE" ()
    (.node .nil
     k!"DATA-SEND-POINTS" ()
     .nil))))
 k!"DESTINATION-REFS" ()
 (.node (.node (.node (.node (.node .nil
      k!"ETHERNET-CLUSTER" ()
      .nil)
     k!"FRESHNESS-PROPSS" ()
     .nil)
    k!"HW-ATTRIBUTE-DEF" ()
    (.node .nil
     k!"HW-CATEGORY-REFS" ()
     .nil))
   k!"I-SIGNAL-MAPPING" ()
   (.node (.node .nil
     k!"INFORMAL-FORMULA" ()
     .nil)
    k!"INNER-GROUP-IREF" ()
    (.node .nil
     k!"INTERNAL-CONSTRS" ()
     .nil)))
  k!"LIFE-CYCLE-INFOS" ()
  (.node (.node (.node .nil
     k!"MC-DATA-INSTANCE" ()
     .nil)
    k!"MC-FUNCTION-REFS" ()
    (.node .nil
     k!"MODE-DECLARATION" ()
     .nil))
   k!"MODE-TRANSITIONS" ()
   (.node (.node .nil
     k!"NETWORK-ENDPOINT" ()
     .nil)
    k!"ORDERED-ELEMENTS" ()
    (.node .nil
     k!"P-PORT-PROTOTYPE" ()
     .nil)))))

def silentTags19 : Bst (Unit) :=
 (.node (.node (.node (.node (.node (.node .nil
      k!"PARAMETER-VALUES" ()
      .nil)
     k!"PORT-API-OPTIONS" ()
     .nil)
    k!"R-PORT-PROTOTYPE" ()
    (.node .nil
     k!"REFERENCE-VALUES" ()
     .nil))
   k!"RPT-SUPPORT-DATA" ()
   (.node (.node .nil
     k!"SD-CLIENT-CONFIG" ()
     .nil)
    k!"SD-SERVER-CONFIG" ()
    (.node .nil
     k!"SOFTWARE-CONTEXT" ()
     .nil)))
  k!"SW-HOST-VARIABLE" ()
  (.node (.node (.node .nil
     k!"SW-IMPL-MAPPINGS" ()
     .nil)
    k!"SW-RECORD-LAYOUT" ()
    (.node .nil
     k!"SWC-TRIGGER-IREF" ()
     .nil))
   k!"TESTED-ITEM-REFS" ()
   (.node (.node .nil
     k!"TP-CONFIGURATION" ()
     .nil)
    k!"USE-INSTEAD-REFS" ()
    (.node .nil
     k!"USER-DEFINED-PDU" ()
     .nil))))
 k!"VLAN-MEMBERSHIPS" ()
 (.node (.node (.node (.node (.node .nil
      k!"ACCESS-COUNT-SETS" ()
      .nil)
     k!"ACCESSED-VARIABLE" ()
     .nil)
    k!"ACTIVATION-POINTS" ()
    (.node .nil
     k!"APPLICATION-ENTRY" ()
     .nil))
   k!"APPLICATION-ERROR" ()
   (.node (.node .nil
     k!"BSW-CALLED-ENTITY" ()
     .nil)
    k!"BUFFER-PROPERTIES" ()
    (.node .nil
     k!"CAN-TP-CONNECTION" ()
     .nil)))
  k!"COMPU-DENOMINATOR" ()
  (.node (.node (.node .nil
     k!"CONDITION-FORMULA" ()
     .nil)
    k!"CONSISTENCY-NEEDS" ()
    (.node .nil
     k!"DATA-CONSTR-RULES" ()
     .nil))
   k!"DATA-ELEMENT-IREF" ()
   (.node (.node .nil
     k!"DATA-READ-ACCESSS" ()
     .nil)
    k!"DEVELOPMENT-ERROR" ()
    (.node .nil
     k!"FRAME-TRIGGERINGS" ()
     .nil)))))

def silentTags20 : Bst (Unit) :=
 .node silentTags18 k!"PARAMETER-ACCESS" () silentTags19

def silentTags21 : Bst (Unit) :=
 .node silentTags17 k!"VARIABLE-ACCESS" () silentTags20

def silentTags22 : Bst (Unit) :=
 (.node (.node (.node (.node (.node (.node .nil
      k!"HW-PIN-CONNECTION" ()
      .nil)
     k!"INNER-GROUP-IREFS" ()
     .nil)
    k!"LEAF-ELEMENT-IREF" ()
    (.node .nil
     k!"LIN-TP-CONNECTION" ()
     .nil))
   k!"MODE-ACCESS-POINT" ()
   (.node (.node .nil
     k!"MODE-DECLARATIONS" ()
     .nil)
    k!"MODE-SWITCH-POINT" ()
    (.node .nil
     k!"MODE-SWITCHED-ACK" ()
     .nil)))
  k!"MSR-QUERY-CHAPTER" ()
  (.node (.node (.node .nil
     k!"MSR-QUERY-TOPIC-1" ()
     .nil)
    k!"MULTIPLEXED-I-PDU" ()
    (.node .nil
     k!"NETWORK-ENDPOINTS" ()
     .nil))
   k!"NV-DATA-INTERFACE" ()
   (.node (.node .nil
     k!"PARAMETER-ACCESSS" ()
     .nil)
    k!"PHYSICAL-CHANNELS" ()
    (.node .nil
     k!"PR-PORT-PROTOTYPE" ()
     .nil))))
 k!"RECEPTION-POLICYS" ()
 (.node (.node (.node (.node (.node .nil
      k!"REPETITION-PERIOD" ()
      .nil)
     k!"REQUIRED-TRIGGERS" ()
     .nil)
    k!"RULE-BASED-VALUES" ()
    (.node .nil
     k!"RUNNABLE-MAPPINGS" ()
     .nil))
   k!"SEGMENT-POSITIONS" ()
   (.node (.node .nil
     k!"SHARED-PARAMETERS" ()
     .nil)
    k!"SOCKET-CONNECTION" ()
    (.node .nil
     k!"SUB-FUNCTION-REFS" ()
     .nil)))
  k!"SW-DATA-DEF-PROPS" ()
  (.node (.node (.node .nil
     k!"SW-REFRESH-TIMING" ()
     .nil)
    k!"TRIGGER-INTERFACE" ()
    (.node .nil
     k!"USED-DATA-ELEMENT" ()
     .nil))
   k!"VARIABLE-INSTANCE" ()
   (.node (.node .nil
     k!"WRITING-STRATEGYS" ()
     .nil)
    k!"ACCESSED-PARAMETER" ()
    (.node .nil
     k!"ACTIVATION-REASONS" ()
     .nil)))))

def silentTags23 : Bst (Unit) :=
 (.node (.node (.node (.node (.node (.node .nil
      k!"COM-MGR-USER-NEEDS" ()
      .nil)
     k!"CONNECTION-BUNDLES" ()
     .nil)
    k!"CONSISTENCY-NEEDSS" ()
    (.node .nil
     k!"CONSTANT-REFERENCE" ()
     .nil))
   k!"COUPLING-PORT-FIFO" ()
   (.node (.node .nil
     k!"DATA-WRITE-ACCESSS" ()
     .nil)
    k!"DEFERRING-FID-REFS" ()
    (.node .nil
     k!"DISABLED-MODE-IREF" ()
     .nil)))
  k!"ECUC-REFERENCE-DEF" ()
  (.node (.node (.node .nil
     k!"EMULATION-SUPPORTS" ()
     .nil)
    k!"END-TO-END-PROFILE" ()
    (.node .nil
     k!"ERROR-TRACER-NEEDS" ()
     .nil))
   k!"EXECUTION-CONTEXTS" ()
   (.node (.node .nil
     k!"FIREWALL-RULE-REFS" ()
     .nil)
    k!"FLEXRAY-FIFO-RANGE" ()
    (.node .nil
     k!"HW-ATTRIBUTE-VALUE" ()
     .nil))))
 k!"I-SIGNAL-PORT-REFS" ()
 (.node (.node (.node (.node (.node .nil
      k!"IN-MEASUREMENT-SET" ()
      .nil)
     k!"INSTANCE-IN-MEMORY" ()
     .nil)
    k!"INTERNAL-BEHAVIORS" ()
    (.node .nil
     k!"LIN-SCHEDULE-TABLE" ()
     .nil))
   k!"MODE-ACCESS-POINTS" ()
   (.node (.node .nil
     k!"MODE-SWITCH-POINTS" ()
     .nil)
    k!"OPERATION-MAPPINGS" ()
    (.node .nil
     k!"PARAMETER-INSTANCE" ()
     .nil)))
  k!"PHYSICAL-DIMENSION" ()
  (.node (.node (.node .nil
     k!"PREDEFINED-VARIANT" ()
     .nil)
    k!"PROVIDED-COM-SPECS" ()
    (.node .nil
     k!"REFINED-EVENT-IREF" ()
     .nil))
   k!"REQUIRED-ARTIFACTS" ()
   (.node (.node .nil
     k!"REQUIRED-COM-SPECS" ()
     .nil)
    k!"ROUTING-GROUP-REFS" ()
    (.node .nil
     k!"RPT-SERVICE-POINTS" ()
     .nil)))))

def silentTags24 : Bst (Unit) :=
 .node silentTags22 k!"BSW-IMPLEMENTATION" () silentTags23

def silentTags25 : Bst (Unit) :=
 (.node (.node (.node (.node (.node (.node .nil
      k!"SW-AXIS-INDIVIDUAL" ()
      .nil)
     k!"SW-CALPRM-AXIS-SET" ()
     .nil)
    k!"SW-DATA-DEPENDENCY" ()
    (.node .nil
     k!"SW-RECORD-LAYOUT-V" ()
     .nil))
   k!"SWC-IMPLEMENTATION" ()
   (.node (.node .nil
     k!"SWC-TO-ECU-MAPPING" ()
     .nil)
    k!"SYSTEM-SIGNAL-REFS" ()
    (.node .nil
     k!"TEXT-TABLE-MAPPING" ()
     .nil)))
  k!"TRANSLATION-TARGET" ()
  (.node (.node (.node .nil
     k!"TRANSMISSION-PROPS" ()
     .nil)
    k!"USER-DEFINED-I-PDU" ()
    (.node .nil
     k!"VALIDATION-FORMULA" ()
     .nil))
   k!"ARTIFACT-DESCRIPTOR" ()
   (.node (.node .nil
     k!"ASSIGNED-DATA-TYPES" ()
     .nil)
    k!"BLUEPRINT-CONDITION" ()
    (.node .nil
     k!"BSW-VARIABLE-ACCESS" ()
     .nil))))
 k!"BUNDLED-CONNECTIONS" ()
 (.node (.node (.node (.node (.node .nil
      k!"CALCULATION-FORMULA" ()
      .nil)
     k!"CLIENT-SERVER-PORTS" ()
     .nil)
    k!"COMMUNICATION-CYCLE" ()
    (.node .nil
     k!"COMPU-DEFAULT-VALUE" ()
     .nil))
   k!"DATA-RECEIVE-POINTS" ()
   (.node (.node .nil
     k!"DATA-RECEIVED-EVENT" ()
     .nil)
    k!"DATA-TRANSFORMATION" ()
    (.node .nil
     k!"DISABLED-MODE-IREFS" ()
     .nil)))
  k!"DO-IP-LOGIC-ADDRESS" ()
  (.node (.node (.node .nil
     k!"DO-IP-TP-CONNECTION" ()
     .nil)
    k!"DOCUMENTATION-BLOCK" ()
    (.node .nil
     k!"ECU-TASK-PROXY-REFS" ()
     .nil))
   k!"EXCLUSIVE-AREA-REFS" ()
   (.node (.node .nil
     k!"FLAT-MAP-ENTRY-REFS" ()
     .nil)
    k!"GENERAL-PURPOSE-PDU" ()
    (.node .nil
     k!"GENERATED-ARTIFACTS" ()
     .nil)))))

def silentTags26 : Bst (Unit) :=
 (.node (.node (.node (.node (.node (.node .nil
      k!"I-SIGNAL-TRIGGERING" ()
      .nil)
     k!"INVALIDATION-POLICY" ()
     .nil)
    k!"IPV-6-CONFIGURATION" ()
    (.node .nil
     k!"LIFE-CYCLE-INFO-SET" ()
     .nil))
   k!"LIN-MASTER-VARIANTS" ()
   (.node (.node .nil
     k!"LOC-MEASUREMENT-SET" ()
     .nil)
    k!"MAC-MULTICAST-GROUP" ()
    (.node .nil
     k!"MANAGED-MODE-GROUPS" ()
     .nil)))
  k!"MC-DATA-ASSIGNMENTS" ()
  (.node (.node (.node .nil
     k!"MEASURED-HEAP-USAGE" ()
     .nil)
    k!"MODE-SENDER-POLICYS" ()
    (.node .nil
     k!"MSR-QUERY-RESULT-P2" ()
     .nil))
   k!"NV-BLOCK-DESCRIPTOR" ()
   (.node (.node .nil
     k!"NV-PROVIDE-COM-SPEC" ()
     .nil)
    k!"NV-REQUIRE-COM-SPEC" ()
    (.node .nil
     k!"OUT-MEASUREMENT-SET" ()
     .nil))))
 k!"PARAMETER-INTERFACE" ()
 (.node (.node (.node (.node (.node .nil
      k!"PER-INSTANCE-MEMORY" ()
      .nil)
     k!"POSSIBLE-ERROR-REFS" ()
     .nil)
    k!"REF-MEASUREMENT-SET" ()
    (.node .nil
     k!"RX-IDENTIFIER-RANGE" ()
     .nil))
   k!"SECTION-NAME-PREFIX" ()
   (.node (.node .nil
     k!"SERVICE-DEPENDENCYS" ()
     .nil)
    k!"SHORT-NAME-FRAGMENT" ()
    (.node .nil
     k!"SO-AD-ROUTING-GROUP" ()
     .nil)))
  k!"SOURCE-ELEMENT-REFS" ()
  (.node (.node (.node .nil
     k!"SUB-ELEMENT-MAPPING" ()
     .nil)
    k!"SUPPORTING-MATERIAL" ()
    (.node .nil
     k!"SW-CALPRM-REF-PROXY" ()
     .nil))
   k!"SWC-MODE-GROUP-IREF" ()
   (.node (.node .nil
     k!"SWC-TO-IMPL-MAPPING" ()
     .nil)
    k!"SYMBOLIC-NAME-PROPS" ()
    (.node .nil
     k!"SYSTEM-SIGNAL-GROUP" ()
     .nil)))))

def silentTags27 : Bst (Unit) :=
 .node silentTags25 k!"HW-ATTRIBUTE-VALUES" () silentTags26

def silentTags28 : Bst (Unit) :=
 .node silentTags24 k!"SERVER-CALL-POINTS" () silentTags27

def silentTags29 : Bst (Unit) :=
 .node silentTags21 k!"HW-ATTRIBUTE-DEFS" () silentTags28

def silentTags30 : Bst (Unit) :=
 .node silentTags14 k!"SOCKET-ADDRESS" () silentTags29

def silentTags31 : Bst (Unit) :=
 (.node (.node (.node (.node (.node (.node .nil
      k!"TIMING-REQUIREMENTS" ()
      .nil)
     k!"ACCESSED-MODE-GROUPS" ()
     .nil)
    k!"APPLICATION-ENDPOINT" ()
    (.node .nil
     k!"ARTIFACT-DESCRIPTORS" ()
     .nil))
   k!"ASSIGNED-ENTRY-ROLES" ()
   (.node (.node .nil
     k!"BSW-BACKGROUND-EVENT" ()
     .nil)
    k!"BSW-INTERRUPT-ENTITY" ()
    (.node .nil
     k!"CALLBACK-HEADER-REFS" ()
     .nil)))
  k!"CAN-CLUSTER-VARIANTS" ()
  (.node (.node (.node .nil
     k!"CAN-FRAME-TRIGGERING" ()
     .nil)
    k!"CAN-PHYSICAL-CHANNEL" ()
    (.node .nil
     k!"CONSUMED-EVENT-GROUP" ()
     .nil))
   k!"COUPLED-CLUSTER-REFS" ()
   (.node (.node .nil
     k!"CRYPTO-SERVICE-NEEDS" ()
     .nil)
    k!"DATA-PROTOTYPE-GROUP" ()
    (.node .nil
     k!"DATA-TRANSFORMATIONS" ()
     .nil))))
 k!"DESTINATION-URI-DEFS" ()
 (.node (.node (.node (.node (.node .nil
      k!"DESTINATION-URI-REFS" ()
      .nil)
     k!"DO-IP-LOGIC-ADDRESSS" ()
     .nil)
    k!"ECUC-CONTAINER-VALUE" ()
    (.node .nil
     k!"ECUC-FLOAT-PARAM-DEF" ()
     .nil))
   k!"ECUC-REFERENCE-VALUE" ()
   (.node (.node .nil
     k!"HW-ELEMENT-CONNECTOR" ()
     .nil)
    k!"I-SIGNAL-I-PDU-GROUP" ()
    (.node .nil
     k!"I-SIGNAL-TRIGGERINGS" ()
     .nil)))
  k!"INVALIDATION-POLICYS" ()
  (.node (.node (.node .nil
     k!"LIN-CLUSTER-VARIANTS" ()
     .nil)
    k!"LIN-FRAME-TRIGGERING" ()
    (.node .nil
     k!"LIN-PHYSICAL-CHANNEL" ()
     .nil))
   k!"MAC-MULTICAST-GROUPS" ()
   (.node (.node .nil
     k!"MEASURED-STACK-USAGE" ()
     .nil)
    k!"MODE-PORT-ANNOTATION" ()
    (.node .nil
     k!"NM-CLUSTER-COUPLINGS" ()
     .nil)))))

def silentTags32 : Bst (Unit) :=
 (.node (.node (.node (.node (.node (.node .nil
      k!"NV-RAM-BLOCK-ELEMENT" ()
      .nil)
     k!"PDU-TO-FRAME-MAPPING" ()
     .nil)
    k!"PER-INSTANCE-MEMORYS" ()
    (.node .nil
     k!"PROVIDED-MODE-GROUPS" ()
     .nil))
   k!"RAM-BLOCK-INIT-VALUE" ()
   (.node (.node .nil
     k!"READ-LOCAL-VARIABLES" ()
     .nil)
    k!"REQUIRED-MODE-GROUPS" ()
    (.node .nil
     k!"RESOURCE-CONSUMPTION" ()
     .nil)))
  k!"RESULTING-PROPERTIES" ()
  (.node (.node (.node .nil
     k!"ROM-BLOCK-INIT-VALUE" ()
     .nil)
    k!"RULE-BASED-AXIS-CONT" ()
    (.node .nil
     k!"RUNNABLE-ENTITY-IREF" ()
     .nil))
   k!"SECTION-NAME-PREFIXS" ()
   (.node (.node .nil
     k!"SHORT-NAME-FRAGMENTS" ()
     .nil)
    k!"SUB-ELEMENT-MAPPINGS" ()
    (.node .nil
     k!"SW-CALIBRATION-NOTES" ()
     .nil))))
 k!"SW-DIAGNOSTICS-NOTES" ()
 (.node (.node (.node (.node (.node .nil
      k!"SW-MAINTENANCE-NOTES" ()
      .nil)
     k!"SW-SYSTEMCONST-VALUE" ()
     .nil)
    k!"VALUE-CONFIG-CLASSES" ()
    (.node .nil
     k!"VARIABLE-ACCESS-IREF" ()
     .nil))
   k!"WRITTEN-READ-NV-DATA" ()
   (.node (.node .nil
     k!"ASSEMBLY-SW-CONNECTOR" ()
     .nil)
    k!"AUTHENTICATION-PROPSS" ()
    (.node .nil
     k!"AUTOSAR-VARIABLE-IREF" ()
     .nil)))
  k!"BSW-INTERNAL-BEHAVIOR" ()
  (.node (.node (.node .nil
     k!"BSW-MODE-SWITCH-EVENT" ()
     .nil)
    k!"BSW-MODULE-DEPENDENCY" ()
    (.node .nil
     k!"BUS-DEPENDENT-NM-ECUS" ()
     .nil))
   k!"COMPU-RATIONAL-COEFFS" ()
   (.node (.node .nil
     k!"CONSUMED-EVENT-GROUPS" ()
     .nil)
    k!"CONTAINED-I-PDU-PROPS" ()
    (.node .nil
     k!"COUPLING-PORT-DETAILS" ()
     .nil)))))

def silentTags33 : Bst (Unit) :=
 .node silentTags31 k!"NV-BLOCK-DESCRIPTORS" () silentTags32

def silentTags34 : Bst (Unit) :=
 (.node (.node (.node (.node (.node (.node .nil
      k!"DIAGNOSTIC-CONNECTION" ()
      .nil)
     k!"DISABLED-IN-MODE-IREF" ()
     .nil)
    k!"DOCUMENTATION-CONTENT" ()
    (.node .nil
     k!"DOCUMENTATION-CONTEXT" ()
     .nil))
   k!"ECU-RESOURCE-MAPPINGS" ()
   (.node (.node .nil
     k!"ECUC-QUERY-EXPRESSION" ()
     .nil)
    k!"ECUC-STRING-PARAM-DEF" ()
    (.node .nil
     k!"ECUC-VALIDATION-CONDS" ()
     .nil)))
  k!"ECUC-VALUE-COLLECTION" ()
  (.node (.node (.node .nil
     k!"END-TO-END-PROTECTION" ()
     .nil)
    k!"GENERAL-PURPOSE-I-PDU" ()
    (.node .nil
     k!"HARDWARE-ELEMENT-REFS" ()
     .nil))
   k!"HW-ATTRIBUTE-LITERALS" ()
   (.node (.node .nil
     k!"INCLUDED-LIBRARY-REFS" ()
     .nil)
    k!"INCLUDED-VARIANT-REFS" ()
    (.node .nil
     k!"INITIAL-FIND-BEHAVIOR" ()
     .nil))))
 k!"MC-DATA-INSTANCE-REFS" ()
 (.node (.node (.node (.node (.node .nil
      k!"MC-VARIABLE-INSTANCES" ()
      .nil)
     k!"MODE-PORT-ANNOTATIONS" ()
     .nil)
    k!"MODE-REQUEST-TYPE-MAP" ()
    (.node .nil
     k!"MODE-SWITCH-INTERFACE" ()
     .nil))
   k!"NETWORK-ENDPOINT-REFS" ()
   (.node (.node .nil
     k!"NV-BLOCK-DATA-MAPPING" ()
     .nil)
    k!"OBD-PID-SERVICE-NEEDS" ()
    (.node .nil
     k!"PDU-TO-FRAME-MAPPINGS" ()
     .nil)))
  k!"RPT-EXECUTABLE-ENTITY" ()
  (.node (.node (.node .nil
     k!"RPT-EXECUTION-CONTEXT" ()
     .nil)
    k!"RUNNABLE-ENTITY-GROUP" ()
    (.node .nil
     k!"RUNNABLE-ENTITY-IREFS" ()
     .nil))
   k!"SW-BIT-REPRESENTATION" ()
   (.node (.node .nil
     k!"SW-GENERIC-AXIS-PARAM" ()
     .nil)
    k!"SW-VARIABLE-REF-PROXY" ()
    (.node .nil
     k!"SWC-INTERNAL-BEHAVIOR" ()
     .nil)))))

def silentTags35 : Bst (Unit) :=
 (.node (.node (.node (.node (.node (.node .nil
      k!"SYNCHRONIZED-TRIGGERS" ()
      .nil)
     k!"VARIABLE-ACCESS-IREFS" ()
     .nil)
    k!"VARIATION-POINT-PROXY" ()
    (.node .nil
     k!"WORST-CASE-HEAP-USAGE" ()
     .nil))
   k!"AUTOSAR-PARAMETER-IREF" ()
   (.node (.node .nil
     k!"BSW-MODE-SENDER-POLICY" ()
     .nil)
    k!"BSW-MODULE-DEPENDENCYS" ()
    (.node .nil
     k!"BSW-MODULE-DESCRIPTION" ()
     .nil)))
  k!"BSW-SCHEDULABLE-ENTITY" ()
  (.node (.node (.node .nil
     k!"BSW-SERVICE-DEPENDENCY" ()
     .nil)
    k!"BUILD-ACTION-MANIFESTS" ()
    (.node .nil
     k!"COMPU-INTERNAL-TO-PHYS" ()
     .nil))
   k!"COMPU-PHYS-TO-INTERNAL" ()
   (.node (.node .nil
     k!"CONSTANT-SPECIFICATION" ()
     .nil)
    k!"DATA-PROTOTYPE-MAPPING" ()
    (.node .nil
     k!"DATA-TYPE-MAPPING-REFS" ()
     .nil))))
 k!"DEPENDENCY-ON-ARTIFACT" ()
 (.node (.node (.node (.node (.node .nil
      k!"DESTINATION-URI-POLICY" ()
      .nil)
     k!"DIAGNOSTIC-CONNECTIONS" ()
     .nil)
    k!"DIAGNOSTIC-EVENT-NEEDS" ()
    (.node .nil
     k!"DIAGNOSTIC-VALUE-NEEDS" ()
     .nil))
   k!"DISABLED-IN-MODE-IREFS" ()
   (.node (.node .nil
     k!"ECUC-BOOLEAN-PARAM-DEF" ()
     .nil)
    k!"ECUC-FUNCTION-NAME-DEF" ()
    (.node .nil
     k!"ECUC-INTEGER-PARAM-DEF" ()
     .nil)))
  k!"END-TO-END-PROTECTIONS" ()
  (.node (.node (.node .nil
     k!"EXCLUSIVE-AREA-POLICYS" ()
     .nil)
    k!"EXECUTABLE-ENTITY-REFS" ()
    (.node .nil
     k!"EXECUTION-CONTEXT-REFS" ()
     .nil))
   k!"HARDWARE-CONFIGURATION" ()
   (.node (.node .nil
     k!"HW-ELEMENT-CONNECTIONS" ()
     .nil)
    k!"INDICATOR-STATUS-NEEDS" ()
    (.node .nil
     k!"INITIAL-OFFER-BEHAVIOR" ()
     .nil)))))

def silentTags36 : Bst (Unit) :=
 .node silentTags34 k!"SWC-MODE-SWITCH-EVENT" () silentTags35

def silentTags37 : Bst (Unit) :=
 .node silentTags33 k!"DATA-TYPE-MAPPING-SET" () silentTags36

def silentTags38 : Bst (Unit) :=
 (.node (.node (.node (.node (.node (.node .nil
      k!"LOCAL-UNICAST-ADDRESSS" ()
      .nil)
     k!"MAXIMUM-EXECUTION-TIME" ()
     .nil)
    k!"MC-DATA-ACCESS-DETAILS" ()
    (.node .nil
     k!"MC-PARAMETER-INSTANCES" ()
     .nil))
   k!"MINIMUM-EXECUTION-TIME" ()
   (.node (.node .nil
     k!"MODE-DECLARATION-GROUP" ()
     .nil)
    k!"MODE-INTERFACE-MAPPING" ()
    (.node .nil
     k!"MODE-REQUEST-TYPE-MAPS" ()
     .nil)))
  k!"NETWORK-REPRESENTATION" ()
  (.node (.node (.node .nil
     k!"NOMINAL-EXECUTION-TIME" ()
     .nil)
    k!"NV-BLOCK-DATA-MAPPINGS" ()
    (.node .nil
     k!"OBD-INFO-SERVICE-NEEDS" ()
     .nil))
   k!"QUEUED-SENDER-COM-SPEC" ()
   (.node (.node .nil
     k!"REQUEST-RESPONSE-DELAY" ()
     .nil)
    k!"RPT-EXECUTABLE-ENTITYS" ()
    (.node .nil
     k!"SW-COMPONENT-PROTOTYPE" ()
     .nil))))
 k!"SW-GENERIC-AXIS-PARAMS" ()
 (.node (.node (.node (.node (.node .nil
      k!"SW-RECORD-LAYOUT-GROUP" ()
      .nil)
     k!"SWC-SERVICE-DEPENDENCY" ()
     .nil)
    k!"TRANSFORMER-CHAIN-REFS" ()
    (.node .nil
     k!"USED-PARAMETER-ELEMENT" ()
     .nil))
   k!"VARIATION-POINT-PROXYS" ()
   (.node (.node .nil
     k!"WORST-CASE-STACK-USAGE" ()
     .nil)
    k!"ANALYZED-EXECUTION-TIME" ()
    (.node .nil
     k!"ARGUMENT-DATA-PROTOTYPE" ()
     .nil)))
  k!"BSW-DATA-RECEIVED-EVENT" ()
  (.node (.node (.node .nil
     k!"BULK-NV-DATA-DESCRIPTOR" ()
     .nil)
    k!"CAN-CLUSTER-CONDITIONAL" ()
    (.node .nil
     k!"CAN-NM-CLUSTER-COUPLING" ()
     .nil))
   k!"CLIENT-SERVER-INTERFACE" ()
   (.node (.node .nil
     k!"CLIENT-SERVER-OPERATION" ()
     .nil)
    k!"CONTEXT-LIMITATION-REFS" ()
    (.node .nil
     k!"COUPLING-PORT-SCHEDULER" ()
     .nil)))))

def silentTags39 : Bst (Unit) :=
 (.node (.node (.node (.node (.node (.node .nil
      k!"DELEGATION-SW-CONNECTOR" ()
      .nil)
     k!"DPG-REQUIRES-COHERENCYS" ()
     .nil)
    k!"ECU-COMM-PORT-INSTANCES" ()
    (.node .nil
     k!"EVENT-CONTROLLED-TIMING" ()
     .nil))
   k!"FUNCTIONAL-REQUEST-REFS" ()
   (.node (.node .nil
     k!"HW-PIN-GROUP-CONNECTION" ()
     .nil)
    k!"INFRASTRUCTURE-SERVICES" ()
    (.node .nil
     k!"LIN-CLUSTER-CONDITIONAL" ()
     .nil)))
  k!"LIN-UNCONDITIONAL-FRAME" ()
  (.node (.node (.node .nil
     k!"MEASURED-EXECUTION-TIME" ()
     .nil)
    k!"MEMORY-SECTION-LOCATION" ()
    (.node .nil
     k!"MODE-SWITCHED-ACK-EVENT" ()
     .nil))
   k!"NV-DATA-PORT-ANNOTATION" ()
   (.node (.node .nil
     k!"OBD-RATIO-SERVICE-NEEDS" ()
     .nil)
    k!"OPERATION-INVOKED-EVENT" ()
    (.node .nil
     k!"PER-INSTANCE-PARAMETERS" ()
     .nil))))
 k!"PORT-INTERFACE-MAPPINGS" ()
 (.node (.node (.node (.node (.node .nil
      k!"POSSIBLE-ERROR-REACTION" ()
      .nil)
     k!"RECORD-ELEMENT-MAPPINGS" ()
     .nil)
    k!"REG-REQUIRES-STABILITYS" ()
    (.node .nil
     k!"REMOTE-UNICAST-ADDRESSS" ()
     .nil))
   k!"SD-SERVER-TIMER-CONFIGS" ()
   (.node (.node .nil
     k!"SUPERVISED-ENTITY-NEEDS" ()
     .nil)
    k!"SW-COMPARISON-VARIABLES" ()
    (.node .nil
     k!"SW-DATA-DEPENDENCY-ARGS" ()
     .nil)))
  k!"SW-POINTER-TARGET-PROPS" ()
  (.node (.node (.node .nil
     k!"TRIGGER-PORT-ANNOTATION" ()
     .nil)
    k!"TRIGGER-REF-CONDITIONAL" ()
    (.node .nil
     k!"UDP-NM-CLUSTER-COUPLING" ()
     .nil))
   k!"UPSTREAM-REFERENCE-IREF" ()
   (.node (.node .nil
     k!"VARIABLE-DATA-PROTOTYPE" ()
     .nil)
    k!"WRITTEN-LOCAL-VARIABLES" ()
    (.node .nil
     k!"BEST-CASE-EXECUTION-TIME" ()
     .nil)))))

def silentTags40 : Bst (Unit) :=
 .node silentTags38 k!"DATA-TRANSFORMATION-SET" () silentTags39

def silentTags41 : Bst (Unit) :=
 (.node (.node (.node (.node (.node (.node .nil
      k!"CLIENT-SERVER-ANNOTATION" ()
      .nil)
     k!"DIAGNOSTIC-ROUTINE-NEEDS" ()
     .nil)
    k!"DIAGNOSTIC-SERVICE-TABLE" ()
    (.node .nil
     k!"DYNAMIC-PART-ALTERNATIVE" ()
     .nil))
   k!"ECU-STATE-MGR-USER-NEEDS" ()
   (.node (.node .nil
     k!"ECUC-DESTINATION-URI-DEF" ()
     .nil)
    k!"ECUC-TEXTUAL-PARAM-VALUE" ()
    (.node .nil
     k!"ESTIMATED-EXECUTION-TIME" ()
     .nil)))
  k!"FLAT-INSTANCE-DESCRIPTOR" ()
  (.node (.node (.node .nil
     k!"FLEXRAY-CLUSTER-VARIANTS" ()
     .nil)
    k!"FLEXRAY-FRAME-TRIGGERING" ()
    (.node .nil
     k!"FLEXRAY-PHYSICAL-CHANNEL" ()
     .nil))
   k!"HW-ATTRIBUTE-LITERAL-DEF" ()
   (.node (.node .nil
     k!"I-SIGNAL-TO-PDU-MAPPINGS" ()
     .nil)
    k!"IMPLEMENTATION-DATA-TYPE" ()
    (.node .nil
     k!"MEMORY-SECTION-LOCATIONS" ()
     .nil))))
 k!"MODE-DECLARATION-MAPPING" ()
 (.node (.node (.node (.node (.node .nil
      k!"MODE-USER-ERROR-BEHAVIOR" ()
      .nil)
     k!"MULTICAST-CONNECTOR-REFS" ()
     .nil)
    k!"NV-DATA-PORT-ANNOTATIONS" ()
    (.node .nil
     k!"PARAMETER-DATA-PROTOTYPE" ()
     .nil))
   k!"PORT-PROTOTYPE-BLUEPRINT" ()
   (.node (.node .nil
     k!"POSSIBLE-ERROR-REACTIONS" ()
     .nil)
    k!"QUEUED-RECEIVER-COM-SPEC" ()
    (.node .nil
     k!"REQUIRED-GENERATOR-TOOLS" ()
     .nil)))
  k!"RUNNABLE-ENTITY-ARGUMENT" ()
  (.node (.node (.node .nil
     k!"SIMULATED-EXECUTION-TIME" ()
     .nil)
    k!"SOCKET-CONNECTION-BUNDLE" ()
    (.node .nil
     k!"SW-SYSTEMCONSTANT-VALUES" ()
     .nil))
   k!"SWC-BSW-RUNNABLE-MAPPING" ()
   (.node (.node .nil
     k!"SYNCHRONIZED-MODE-GROUPS" ()
     .nil)
    k!"TEXT-VALUE-SPECIFICATION" ()
    (.node .nil
     k!"TRANSMISSION-ACKNOWLEDGE" ()
     .nil)))))

def silentTags42 : Bst (Unit) :=
 (.node (.node (.node (.node (.node (.node .nil
      k!"ALLOWED-SERVICE-CONSUMERS" ()
      .nil)
     k!"ARRAY-VALUE-SPECIFICATION" ()
     .nil)
    k!"BSW-MODULE-DOCUMENTATIONS" ()
    (.node .nil
     k!"CAN-CONTROLLER-ATTRIBUTES" ()
     .nil))
   k!"CLIENT-SERVER-ANNOTATIONS" ()
   (.node (.node .nil
     k!"CONSUMED-EVENT-GROUP-REFS" ()
     .nil)
    k!"CONSUMED-SERVICE-INSTANCE" ()
    (.node .nil
     k!"DATA-PROTOTYPE-GROUP-IREF" ()
     .nil)))
  k!"DATA-SEND-COMPLETED-EVENT" ()
  (.node (.node (.node .nil
     k!"DELEGATED-PORT-ANNOTATION" ()
     .nil)
    k!"DYNAMIC-PART-ALTERNATIVES" ()
    (.node .nil
     k!"ECUC-CHOICE-CONTAINER-DEF" ()
     .nil))
   k!"ECUC-CHOICE-REFERENCE-DEF" ()
   (.node (.node .nil
     k!"ECUC-VALIDATION-CONDITION" ()
     .nil)
    k!"END-TO-END-PROTECTION-SET" ()
    (.node .nil
     k!"EOC-EXECUTABLE-ENTITY-REF" ()
     .nil))))
 k!"ETHERNET-CLUSTER-VARIANTS" ()
 (.node (.node (.node (.node (.node .nil
      k!"ETHERNET-PHYSICAL-CHANNEL" ()
      .nil)
     k!"EXTERNAL-TRIGGERING-POINT" ()
     .nil)
    k!"I-SIGNAL-TO-I-PDU-MAPPING" ()
    (.node .nil
     k!"IMPLICIT-DATA-ACCESS-IREF" ()
     .nil))
   k!"INTERNAL-TRIGGERING-POINT" ()
   (.node (.node .nil
     k!"MODE-DECLARATION-MAPPINGS" ()
     .nil)
    k!"NONQUEUED-SENDER-COM-SPEC" ()
    (.node .nil
     k!"OBD-CONTROL-SERVICE-NEEDS" ()
     .nil)))
  k!"OBD-MONITOR-SERVICE-NEEDS" ()
  (.node (.node (.node .nil
     k!"PARAMETER-PORT-ANNOTATION" ()
     .nil)
    k!"PASS-THROUGH-SW-CONNECTOR" ()
    (.node .nil
     k!"PROVIDED-SERVICE-INSTANCE" ()
     .nil))
   k!"ROUGH-ESTIMATE-HEAP-USAGE" ()
   (.node (.node .nil
     k!"SENDER-RECEIVER-INTERFACE" ()
     .nil)
    k!"SERVICE-SW-COMPONENT-TYPE" ()
    (.node .nil
     k!"SUPPORTED-CONFIG-VARIANTS" ()
     .nil)))))

def silentTags43 : Bst (Unit) :=
 .node silentTags41 k!"TRIGGER-PORT-ANNOTATIONS" () silentTags42

def silentTags44 : Bst (Unit) :=
 .node silentTags40 k!"BULK-NV-DATA-DESCRIPTORS" () silentTags43

def silentTags45 : Bst (Unit) :=
 .node silentTags37 k!"LIN-MASTER-CONDITIONAL" () silentTags44

def silentTags46 : Bst (Unit) :=
 (.node (.node (.node (.node (.node (.node .nil
      k!"SWC-EXCLUSIVE-AREA-POLICY" ()
      .nil)
     k!"TRANSFORMATION-TECHNOLOGY" ()
     .nil)
    k!"WORST-CASE-EXECUTION-TIME" ()
    (.node .nil
     k!"APPLICATION-RECORD-ELEMENT" ()
     .nil))
   k!"AUTOSAR-ENGINEERING-OBJECT" ()
   (.node (.node .nil
     k!"CONSUMED-SERVICE-INSTANCES" ()
     .nil)
    k!"DATA-PROTOTYPE-GROUP-IREFS" ()
    (.node .nil
     k!"ECU-EXTRACT-REFERENCE-IREF" ()
     .nil)))
  k!"ECUC-DEFINITION-COLLECTION" ()
  (.node (.node (.node .nil
     k!"ECUC-ENUMERATION-PARAM-DEF" ()
     .nil)
    k!"ECUC-NUMERICAL-PARAM-VALUE" ()
    (.node .nil
     k!"EXECUTION-ORDER-CONSTRAINT" ()
     .nil))
   k!"EXTERNAL-TRIGGERING-POINTS" ()
   (.node (.node .nil
     k!"FLEXRAY-FIFO-CONFIGURATION" ()
     .nil)
    k!"FORMAL-BLUEPRINT-GENERATOR" ()
    (.node .nil
     k!"HW-ELEMENT-REF-CONDITIONAL" ()
     .nil))))
 k!"I-SIGNAL-TO-I-PDU-MAPPINGS" ()
 (.node (.node (.node (.node (.node .nil
      k!"IMPLICIT-DATA-ACCESS-IREFS" ()
      .nil)
     k!"INTERNAL-TRIGGERING-POINTS" ()
     .nil)
    k!"MC-PARAMETER-ELEMENT-GROUP" ()
    (.node .nil
     k!"NETWORK-ENDPOINT-ADDRESSES" ()
     .nil))
   k!"NV-BLOCK-SW-COMPONENT-TYPE" ()
   (.node (.node .nil
     k!"PARAMETER-PORT-ANNOTATIONS" ()
     .nil)
    k!"PARAMETER-PROVIDE-COM-SPEC" ()
    (.node .nil
     k!"PARAMETER-REQUIRE-COM-SPEC" ()
     .nil)))
  k!"PORT-INTERFACE-MAPPING-SET" ()
  (.node (.node (.node .nil
     k!"PROVIDED-SERVICE-INSTANCES" ()
     .nil)
    k!"RECORD-VALUE-SPECIFICATION" ()
    (.node .nil
     k!"ROLE-BASED-DATA-ASSIGNMENT" ()
     .nil))
   k!"ROLE-BASED-PORT-ASSIGNMENT" ()
   (.node (.node .nil
     k!"ROOT-SOFTWARE-COMPOSITIONS" ()
     .nil)
    k!"ROUGH-ESTIMATE-STACK-USAGE" ()
    (.node .nil
     k!"RPT-SERVICE-POINT-PRE-REFS" ()
     .nil)))))

def silentTags47 : Bst (Unit) :=
 (.node (.node (.node (.node (.node (.node .nil
      k!"SECURE-COMMUNICATION-PROPS" ()
      .nil)
     k!"SENDER-RECEIVER-ANNOTATION" ()
     .nil)
    k!"SW-COMPONENT-DOCUMENTATION" ()
    (.node .nil
     k!"SW-DATA-DEF-PROPS-VARIANTS" ()
     .nil))
   k!"SW-DATA-DEPENDENCY-FORMULA" ()
   (.node (.node .nil
     k!"TIMEOUT-SUBSTITUTION-VALUE" ()
     .nil)
    k!"TRANSFORMATION-TECHNOLOGYS" ()
    (.node .nil
     k!"APPLICATION-ARRAY-DATA-TYPE" ()
     .nil)))
  k!"BSW-MODE-SWITCHED-ACK-EVENT" ()
  (.node (.node (.node .nil
     k!"BSW-OPERATION-INVOKED-EVENT" ()
     .nil)
    k!"CAN-COMMUNICATION-CONNECTOR" ()
    (.node .nil
     k!"CONSTANT-VALUE-MAPPING-REFS" ()
     .nil))
   k!"DIAGNOSTIC-EVENT-INFO-NEEDS" ()
   (.node (.node .nil
     k!"DIAGNOSTIC-IO-CONTROL-NEEDS" ()
     .nil)
    k!"ECUC-INSTANCE-REFERENCE-DEF" ()
    (.node .nil
     k!"FLEXRAY-CLUSTER-CONDITIONAL" ()
     .nil))))
 k!"I-PDU-TIMING-SPECIFICATIONS" ()
 (.node (.node (.node (.node (.node .nil
      k!"LIN-COMMUNICATION-CONNECTOR" ()
      .nil)
     k!"MODE-DECLARATION-GROUP-REFS" ()
     .nil)
    k!"MODE-MANAGER-ERROR-BEHAVIOR" ()
    (.node .nil
     k!"MODE-SWITCH-SENDER-COM-SPEC" ()
     .nil))
   k!"MULTIPLICITY-CONFIG-CLASSES" ()
   (.node (.node .nil
     k!"NONQUEUED-RECEIVER-COM-SPEC" ()
     .nil)
    k!"OBD-RATIO-DENOMINATOR-NEEDS" ()
    (.node .nil
     k!"PORT-DEFINED-ARGUMENT-VALUE" ()
     .nil)))
  k!"RPT-EXECUTABLE-ENTITY-EVENT" ()
  (.node (.node (.node .nil
     k!"RPT-SERVICE-POINT-POST-REFS" ()
     .nil)
    k!"RUNNABLE-ENTITY-GROUP-IREFS" ()
    (.node .nil
     k!"SENDER-RECEIVER-ANNOTATIONS" ()
     .nil))
   k!"SW-SYSTEMCONSTANT-VALUE-SET" ()
   (.node (.node .nil
     k!"SWC-MAPPING-CONSTRAINT-REFS" ()
     .nil)
    k!"TRANSFORMATION-DESCRIPTIONS" ()
    (.node .nil
     k!"TRANSMISSION-MODE-CONDITION" ()
     .nil)))))

def silentTags48 : Bst (Unit) :=
 .node silentTags46 k!"RUNNABLE-ENTITY-GROUP-IREF" () silentTags47

def silentTags49 : Bst (Unit) :=
 (.node (.node (.node (.node (.node (.node .nil
      k!"APPLICATION-RECORD-DATA-TYPE" ()
      .nil)
     k!"BSW-MODE-MANAGER-ERROR-EVENT" ()
     .nil)
    k!"CAN-COMMUNICATION-CONTROLLER" ()
    (.node .nil
     k!"COMPOUND-PRIMITIVE-ARGUMENTS" ()
     .nil))
   k!"DATA-RECEIVE-POINT-BY-VALUES" ()
   (.node (.node .nil
     k!"ECUC-DESTINATION-URI-DEF-SET" ()
     .nil)
    k!"ECUC-ENUMERATION-LITERAL-DEF" ()
    (.node .nil
     k!"ETHERNET-CLUSTER-CONDITIONAL" ()
     .nil)))
  k!"EXCLUSIVE-AREA-NESTING-ORDER" ()
  (.node (.node (.node .nil
     k!"INSTANTIATION-DATA-DEF-PROPS" ()
     .nil)
    k!"MODE-DECLARATION-MAPPING-SET" ()
    (.node .nil
     k!"NETWORK-REPRESENTATION-PROPS" ()
     .nil))
   k!"POST-BUILD-VARIANT-CONDITION" ()
   (.node (.node .nil
     k!"POST-BUILD-VARIANT-CRITERION" ()
     .nil)
    k!"RPT-EXECUTABLE-ENTITY-EVENTS" ()
    (.node .nil
     k!"SWC-BSW-SYNCHRONIZED-TRIGGER" ()
     .nil))))
 k!"TRANSMISSION-MODE-CONDITIONS" ()
 (.node (.node (.node (.node (.node .nil
      k!"APPLICATION-SW-COMPONENT-TYPE" ()
      .nil)
     k!"AR-TYPED-PER-INSTANCE-MEMORYS" ()
     .nil)
    k!"BSW-INTERNAL-TRIGGERING-POINT" ()
    (.node .nil
     k!"CAN-ENTER-EXCLUSIVE-AREA-REFS" ()
     .nil))
   k!"COMPOSITION-SW-COMPONENT-TYPE" ()
   (.node (.node .nil
     k!"DIAG-EVENT-DEBOUNCE-ALGORITHM" ()
     .nil)
    k!"ECUC-INSTANCE-REFERENCE-VALUE" ()
    (.node .nil
     k!"ECUC-PARAM-CONF-CONTAINER-DEF" ()
     .nil)))
  k!"EXCLUSIVE-AREA-NESTING-ORDERS" ()
  (.node (.node (.node .nil
     k!"FIBEX-ELEMENT-REF-CONDITIONAL" ()
     .nil)
    k!"INHIBITING-SECONDARY-FID-REFS" ()
    (.node .nil
     k!"INSTANTIATION-DATA-DEF-PROPSS" ()
     .nil))
   k!"MODE-SWITCH-RECEIVER-COM-SPEC" ()
   (.node (.node .nil
     k!"NUMERICAL-VALUE-SPECIFICATION" ()
     .nil)
    k!"POST-BUILD-VARIANT-CONDITIONS" ()
    (.node .nil
     k!"PROVIDED-CLIENT-SERVER-ENTRYS" ()
     .nil)))))

def silentTags50 : Bst (Unit) :=
 (.node (.node (.node (.node (.node (.node .nil
      k!"ROLE-BASED-MC-DATA-ASSIGNMENT" ()
      .nil)
     k!"ROOT-SW-COMPOSITION-PROTOTYPE" ()
     .nil)
    k!"SW-DATA-DEF-PROPS-CONDITIONAL" ()
    (.node .nil
     k!"SYNCHRONOUS-SERVER-CALL-POINT" ()
     .nil))
   k!"TRANSFORMATION-COM-SPEC-PROPS" ()
   (.node (.node .nil
     k!"TRANSMISSION-MODE-DECLARATION" ()
     .nil)
    k!"TRANSMISSION-MODE-TRUE-TIMING" ()
    (.node .nil
     k!"ASYNCHRONOUS-SERVER-CALL-POINT" ()
     .nil)))
  k!"BSW-MODULE-CLIENT-SERVER-ENTRY" ()
  (.node (.node (.node .nil
     k!"CAN-CONTROLLER-FD-REQUIREMENTS" ()
     .nil)
    k!"CAN-CONTROLLER-XL-REQUIREMENTS" ()
    (.node .nil
     k!"DIAG-EVENT-DEBOUNCE-TIME-BASED" ()
     .nil))
   k!"ECUC-STRING-PARAM-DEF-VARIANTS" ()
   (.node (.node .nil
     k!"ECUC-VALUE-CONFIGURATION-CLASS" ()
     .nil)
    k!"ETHERNET-PRIORITY-REGENERATION" ()
    (.node .nil
     k!"I-SIGNAL-I-PDU-REF-CONDITIONAL" ()
     .nil))))
 k!"INSTANTIATION-RTE-EVENT-PROPSS" ()
 (.node (.node (.node (.node (.node .nil
      k!"MC-GROUP-DATA-REF-SET-VARIANTS" ()
      .nil)
     k!"MC-SW-EMULATION-METHOD-SUPPORT" ()
     .nil)
    k!"PDU-TRIGGERING-REF-CONDITIONAL" ()
    (.node .nil
     k!"PORT-PROTOTYPE-REF-CONDITIONAL" ()
     .nil))
   k!"RECOMMENDED-CONFIGURATION-REFS" ()
   (.node (.node .nil
     k!"SECURE-COMMUNICATION-PROPS-SET" ()
     .nil)
    k!"SENDER-REC-RECORD-TYPE-MAPPING" ()
    (.node .nil
     k!"TRANSFORMATION-COM-SPEC-PROPSS" ()
     .nil)))
  k!"TRANSFORMATION-I-SIGNAL-PROPSS" ()
  (.node (.node (.node .nil
     k!"TRANSMISSION-MODE-FALSE-TIMING" ()
     .nil)
    k!"APPLICATION-PRIMITIVE-DATA-TYPE" ()
    (.node .nil
     k!"APPLICATION-VALUE-SPECIFICATION" ()
     .nil))
   k!"ASSOCIATED-COM-I-PDU-GROUP-REFS" ()
   (.node (.node .nil
     k!"CAN-CONTROLLER-FD-CONFIGURATION" ()
     .nil)
    k!"CAN-CONTROLLER-XL-CONFIGURATION" ()
    (.node .nil
     k!"CLIENT-SERVER-INTERFACE-MAPPING" ()
     .nil)))))

def silentTags51 : Bst (Unit) :=
 .node silentTags49 k!"REQUIRED-CLIENT-SERVER-ENTRYS" () silentTags50

def silentTags52 : Bst (Unit) :=
 .node silentTags48 k!"ABSOLUTELY-SCHEDULED-TIMINGS" () silentTags51

def silentTags53 : Bst (Unit) :=
 (.node (.node (.node (.node (.node (.node .nil
      k!"DATA-RECEIVE-POINT-BY-ARGUMENTS" ()
      .nil)
     k!"DPG-DOES-NOT-REQUIRE-COHERENCYS" ()
     .nil)
    k!"ECUC-FUNCTION-NAME-DEF-VARIANTS" ()
    (.node .nil
     k!"ECUC-MULTILINE-STRING-PARAM-DEF" ()
     .nil))
   k!"ETHERNET-PRIORITY-REGENERATIONS" ()
   (.node (.node .nil
     k!"FLEXRAY-COMMUNICATION-CONNECTOR" ()
     .nil)
    k!"INTERNAL-TRIGGER-OCCURRED-EVENT" ()
    (.node .nil
     k!"REG-DOES-NOT-REQUIRE-STABILITYS" ()
     .nil)))
  k!"ROLE-BASED-DATA-TYPE-ASSIGNMENT" ()
  (.node (.node (.node .nil
     k!"RUNS-INSIDE-EXCLUSIVE-AREA-REFS" ()
     .nil)
    k!"SERVICE-PROXY-SW-COMPONENT-TYPE" ()
    (.node .nil
     k!"VENDOR-SPECIFIC-MODULE-DEF-REFS" ()
     .nil))
   k!"ASSOCIATED-PDUR-I-PDU-GROUP-REFS" ()
   (.node (.node .nil
     k!"BSW-MODULE-ENTRY-REF-CONDITIONAL" ()
     .nil)
    k!"BSW-QUEUED-DATA-RECEPTION-POLICY" ()
    (.node .nil
     k!"COMPOSITE-NETWORK-REPRESENTATION" ()
     .nil))))
 k!"DIAGNOSTIC-OPERATION-CYCLE-NEEDS" ()
 (.node (.node (.node (.node (.node .nil
      k!"ECUC-MODULE-CONFIGURATION-VALUES" ()
      .nil)
     k!"ECUC-SYMBOLIC-NAME-REFERENCE-DEF" ()
     .nil)
    k!"ETHERNET-COMMUNICATION-CONNECTOR" ()
    (.node .nil
     k!"FLEXRAY-COMMUNICATION-CONTROLLER" ()
     .nil))
   k!"IMPLEMENTATION-DATA-TYPE-ELEMENT" ()
   (.node (.node .nil
     k!"INSTANTIATION-TIMING-EVENT-PROPS" ()
     .nil)
    k!"MODE-DECLARATION-GROUP-PROTOTYPE" ()
    (.node .nil
     k!"NETWORK-ENDPOINT-REF-CONDITIONAL" ()
     .nil)))
  k!"PRECONFIGURED-CONFIGURATION-REFS" ()
  (.node (.node (.node .nil
     k!"ROUGH-ESTIMATE-OF-EXECUTION-TIME" ()
     .nil)
    k!"RPT-EXECUTABLE-ENTITY-PROPERTIES" ()
    (.node .nil
     k!"SIGNAL-SERVICE-TRANSLATION-PROPS" ()
     .nil))
   k!"SW-SYSTEMCONSTANT-VALUE-SET-REFS" ()
   (.node (.node .nil
     k!"BSW-SYNCHRONOUS-SERVER-CALL-POINT" ()
     .nil)
    k!"COMPOSITE-NETWORK-REPRESENTATIONS" ()
    (.node .nil
     k!"CONTROL-CONSUMED-EVENT-GROUP-REFS" ()
     .nil)))))

def silentTags54 : Bst (Unit) :=
 (.node (.node (.node (.node (.node (.node .nil
      k!"COUPLING-PORT-STRUCTURAL-ELEMENTS" ()
      .nil)
     k!"DIAG-EVENT-DEBOUNCE-COUNTER-BASED" ()
     .nil)
    k!"DIAGNOSTIC-ENABLE-CONDITION-NEEDS" ()
    (.node .nil
     k!"E-2-E-PROFILE-COMPATIBILITY-PROPS" ()
     .nil))
   k!"ECU-ABSTRACTION-SW-COMPONENT-TYPE" ()
   (.node (.node .nil
     k!"ECUC-STRING-PARAM-DEF-CONDITIONAL" ()
     .nil)
    k!"ETHERNET-COMMUNICATION-CONTROLLER" ()
    (.node .nil
     k!"EXCLUSIVE-AREA-NESTING-ORDER-REFS" ()
     .nil)))
  k!"EXPLICIT-INTER-RUNNABLE-VARIABLES" ()
  (.node (.node (.node .nil
     k!"MC-FUNCTION-DATA-REF-SET-VARIANTS" ()
     .nil)
    k!"MC-GROUP-DATA-REF-SET-CONDITIONAL" ()
    (.node .nil
     k!"SENDER-REC-RECORD-ELEMENT-MAPPING" ()
     .nil))
   k!"SENDER-RECEIVER-TO-SIGNAL-MAPPING" ()
   (.node (.node .nil
     k!"SENSOR-ACTUATOR-SW-COMPONENT-TYPE" ()
     .nil)
    k!"SOCKET-CONNECTION-IPDU-IDENTIFIER" ()
    (.node .nil
     k!"APPLICATION-COMPOSITE-ELEMENT-IREF" ()
     .nil))))
 k!"BSW-ASYNCHRONOUS-SERVER-CALL-POINT" ()
 (.node (.node (.node (.node (.node .nil
      k!"DIAGNOSTIC-STORAGE-CONDITION-NEEDS" ()
      .nil)
     k!"ECUC-FUNCTION-NAME-DEF-CONDITIONAL" ()
     .nil)
    k!"P-PORT-IN-COMPOSITION-INSTANCE-REF" ()
    (.node .nil
     k!"R-PORT-IN-COMPOSITION-INSTANCE-REF" ()
     .nil))
   k!"BSW-EXTERNAL-TRIGGER-OCCURRED-EVENT" ()
   (.node (.node .nil
     k!"BSW-INTERNAL-TRIGGER-OCCURRED-EVENT" ()
     .nil)
    k!"CONTAINED-I-SIGNAL-I-PDU-GROUP-REFS" ()
    (.node .nil
     k!"DATA-PROTOTYPE-TRANSFORMATION-PROPS" ()
     .nil)))
  k!"DATA-TRANSFORMATION-REF-CONDITIONAL" ()
  (.node (.node (.node .nil
     k!"EXECUTABLE-ENTITY-ACTIVATION-REASON" ()
     .nil)
    k!"FLEXRAY-ABSOLUTELY-SCHEDULED-TIMING" ()
    (.node .nil
     k!"I-SIGNAL-TRIGGERING-REF-CONDITIONAL" ()
     .nil))
   k!"INCLUDED-MODE-DECLARATION-GROUP-SET" ()
   (.node (.node .nil
     k!"IO-HW-ABSTRACTION-SERVER-ANNOTATION" ()
     .nil)
    k!"RESULTING-RPT-SW-PROTOTYPING-ACCESS" ()
    (.node .nil
     k!"SECURE-ON-BOARD-COMMUNICATION-NEEDS" ()
     .nil)))))

def silentTags55 : Bst (Unit) :=
 .node silentTags53 k!"CONTROL-PROVIDED-EVENT-GROUP-REFS" () silentTags54

def silentTags56 : Bst (Unit) :=
 (.node (.node (.node (.node (.node (.node .nil
      k!"CALIBRATION-PARAMETER-VALUE-SET-REFS" ()
      .nil)
     k!"DATA-PROTOTYPE-IN-PORT-INTERFACE-REF" ()
     .nil)
    k!"DATA-PROTOTYPE-TRANSFORMATION-PROPSS" ()
    (.node .nil
     k!"DIAG-EVENT-DEBOUNCE-MONITOR-INTERNAL" ()
     .nil))
   k!"DTC-STATUS-CHANGE-NOTIFICATION-NEEDS" ()
   (.node (.node .nil
     k!"END-TO-END-PROTECTION-I-SIGNAL-I-PDU" ()
     .nil)
    k!"INCLUDED-MODE-DECLARATION-GROUP-SETS" ()
    (.node .nil
     k!"IO-HW-ABSTRACTION-SERVER-ANNOTATIONS" ()
     .nil)))
  k!"MC-FUNCTION-DATA-REF-SET-CONDITIONAL" ()
  (.node (.node (.node .nil
     k!"MODE-SWITCH-EVENT-TRIGGERED-ACTIVITY" ()
     .nil)
    k!"SECURE-COMMUNICATION-FRESHNESS-PROPS" ()
    (.node .nil
     k!"SIGNAL-SERVICE-TRANSLATION-PROPS-SET" ()
     .nil))
   k!"ASYNCHRONOUS-SERVER-CALL-RESULT-POINT" ()
   (.node (.node .nil
     k!"BUILD-ACTION-MANIFEST-REF-CONDITIONAL" ()
     .nil)
    k!"CAN-COMMUNICATION-CONTROLLER-VARIANTS" ()
    (.node .nil
     k!"DIAGNOSTIC-CONNECTION-REF-CONDITIONAL" ()
     .nil))))
 k!"ECUC-MULTIPLICITY-CONFIGURATION-CLASS" ()
 (.node (.node (.node (.node (.node .nil
      k!"END-TO-END-PROTECTION-I-SIGNAL-I-PDUS" ()
      .nil)
     k!"END-TO-END-TRANSFORMATION-DESCRIPTION" ()
     .nil)
    k!"MODE-SWITCH-EVENT-TRIGGERED-ACTIVITYS" ()
    (.node .nil
     k!"ASYNCHRONOUS-SERVER-CALL-RESULT-POINTS" ()
     .nil))
   k!"ASYNCHRONOUS-SERVER-CALL-RETURNS-EVENT" ()
   (.node (.node .nil
     k!"COM-BASED-SIGNAL-GROUP-TRANSFORMATIONS" ()
     .nil)
    k!"DIAGNOSTIC-COMMUNICATION-MANAGER-NEEDS" ()
    (.node .nil
     k!"FUNCTION-INHIBITION-AVAILABILITY-NEEDS" ()
     .nil)))
  k!"MEASURABLE-SYSTEM-CONSTANT-VALUES-REFS" ()
  (.node (.node (.node .nil
     k!"REMOTE-MULTICAST-SUBSCRIPTION-ADDRESSS" ()
     .nil)
    k!"ROLE-BASED-BSW-MODULE-ENTRY-ASSIGNMENT" ()
    (.node .nil
     k!"SIGNAL-SERVICE-TRANSLATION-EVENT-PROPS" ()
     .nil))
   k!"COMMUNICATION-CONNECTOR-REF-CONDITIONAL" ()
   (.node (.node .nil
     k!"COMPLEX-DEVICE-DRIVER-SW-COMPONENT-TYPE" ()
     .nil)
    k!"P-MODE-GROUP-IN-ATOMIC-SWC-INSTANCE-REF" ()
    (.node .nil
     k!"R-MODE-GROUP-IN-ATOMIC-SWC-INSTANCE-REF" ()
     .nil)))))

def silentTags57 : Bst (Unit) :=
 (.node (.node (.node (.node (.node (.node .nil
      k!"CAN-COMMUNICATION-CONTROLLER-CONDITIONAL" ()
      .nil)
     k!"COMPOSITE-RULE-BASED-VALUE-SPECIFICATION" ()
     .nil)
    k!"ECUC-MULTILINE-STRING-PARAM-DEF-VARIANTS" ()
    (.node .nil
     k!"END-TO-END-PROTECTION-VARIABLE-PROTOTYPE" ()
     .nil))
   k!"END-TO-END-TRANSFORMATION-COM-SPEC-PROPS" ()
   (.node (.node .nil
     k!"END-TO-END-TRANSFORMATION-I-SIGNAL-PROPS" ()
     .nil)
    k!"SIGNAL-SERVICE-TRANSLATION-ELEMENT-PROPS" ()
    (.node .nil
     k!"VARIABLE-AND-PARAMETER-INTERFACE-MAPPING" ()
     .nil)))
  k!"CAN-CONTROLLER-CONFIGURATION-REQUIREMENTS" ()
  (.node (.node (.node .nil
     k!"END-TO-END-PROTECTION-VARIABLE-PROTOTYPES" ()
     .nil)
    k!"FLEXRAY-COMMUNICATION-CONTROLLER-VARIANTS" ()
    (.node .nil
     k!"SECURE-COMMUNICATION-AUTHENTICATION-PROPS" ()
     .nil))
   k!"SWC-BSW-SYNCHRONIZED-MODE-GROUP-PROTOTYPE" ()
   (.node (.node .nil
     k!"APPLICATION-RULE-BASED-VALUE-SPECIFICATION" ()
     .nil)
    k!"BSW-ASYNCHRONOUS-SERVER-CALL-RETURNS-EVENT" ()
    (.node .nil
     k!"ETHERNET-COMMUNICATION-CONTROLLER-VARIANTS" ()
     .nil))))
 k!"USER-DEFINED-TRANSFORMATION-COM-SPEC-PROPS" ()
 (.node (.node (.node (.node (.node .nil
      k!"DO-IP-ROUTING-ACTIVATION-CONFIRMATION-NEEDS" ()
      .nil)
     k!"ECUC-MULTILINE-STRING-PARAM-DEF-CONDITIONAL" ()
     .nil)
    k!"POST-BUILD-VARIANT-CRITERION-VALUE-SET-REFS" ()
    (.node .nil
     k!"FLEXRAY-COMMUNICATION-CONTROLLER-CONDITIONAL" ()
     .nil))
   k!"BSW-INTERNAL-TRIGGERING-POINT-REF-CONDITIONAL" ()
   (.node (.node .nil
     k!"DATA-PROTOTYPE-IN-CLIENT-SERVER-INTERFACE-REF" ()
     .nil)
    k!"DO-IP-ROUTING-ACTIVATION-AUTHENTICATION-NEEDS" ()
    (.node .nil
     k!"ETHERNET-COMMUNICATION-CONTROLLER-CONDITIONAL" ()
     .nil)))
  k!"APPLICATION-COMPOSITE-DATA-TYPE-SUB-ELEMENT-REF" ()
  (.node (.node (.node .nil
     k!"ECUC-MODULE-CONFIGURATION-VALUES-REF-CONDITIONAL" ()
     .nil)
    k!"MODE-DECLARATION-GROUP-PROTOTYPE-REF-CONDITIONAL" ()
    (.node .nil
     k!"END-TO-END-TRANSFORMATION-I-SIGNAL-PROPS-VARIANTS" ()
     .nil))
   k!"SUPERVISED-ENTITY-CHECKPOINT-NEEDS-REF-CONDITIONAL" ()
   (.node (.node .nil
     k!"END-TO-END-TRANSFORMATION-I-SIGNAL-PROPS-CONDITIONAL" ()
     .nil)
    k!"ASSOCIATED-CONSUMED-PROVIDED-SERVICE-INSTANCE-GROUP-REFS" ()
    (.node .nil
     k!"SOMEIP-SD-SERVER-SERVICE-INSTANCE-CONFIG-REF-CONDITIONAL" ()
     .nil)))))

def silentTags58 : Bst (Unit) :=
 .node silentTags56 k!"SENDER-RECEIVER-TO-SIGNAL-GROUP-MAPPING" () silentTags57

def silentTags59 : Bst (Unit) :=
 .node silentTags55 k!"APPLICATION-ENDPOINT-REF-CONDITIONAL" () silentTags58

def silentTags60 : Bst (Unit) :=
 .node silentTags52 k!"CLIENT-SERVER-OPERATION-MAPPING" () silentTags59

def silentTags61 : Bst (Unit) :=
 .node silentTags45 k!"SW-VALUE-BLOCK-SIZE-MULTS" () silentTags60

def silentTags62 : Bst (Unit) :=
 .node silentTags30 k!"TEXT-TABLE-MAPPINGS" () silentTags61

/-- The tags of the elements that hold other elements and whose own text is not read. -/
def silentTags : Bst (Unit) := silentTags62


end Verif.Gen
