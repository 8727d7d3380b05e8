import Verif.Model.Bst
-- generated by tools/gen_whole.py; do not edit
namespace Verif.Gen
open Verif

def wholeTags00 : Bst (Unit) :=
 (.node (.node (.node (.node (.node (.node .nil
      k!"E" ()
      .nil)
     k!"P" ()
     .nil)
    k!"IE" ()
    (.node (.node .nil
      k!"SD" ()
      .nil)
     k!"TT" ()
     .nil))
   k!"DEF" ()
   (.node (.node (.node .nil
      k!"L-1" ()
      .nil)
     k!"L-2" ()
     .nil)
    k!"L-4" ()
    (.node .nil
     k!"L-5" ()
     .nil)))
  k!"SDF" ()
  (.node (.node (.node (.node .nil
      k!"SDG" ()
      .nil)
     k!"VTF" ()
     .nil)
    k!"CODE" ()
    (.node (.node .nil
      k!"DESC" ()
      .nil)
     k!"ITEM" ()
     .nil))
   k!"L-10" ()
   (.node (.node (.node .nil
      k!"LIST" ()
      .nil)
     k!"NOTE" ()
     .nil)
    k!"TEXT" ()
    (.node .nil
     k!"UNIT" ()
     .nil))))
 k!"VLAN" ()
 (.node (.node (.node (.node (.node .nil
      k!"IDENT" ()
      .nil)
     k!"LABEL" ()
     .nil)
    k!"LIMIT" ()
    (.node (.node .nil
      k!"N-PDU" ()
      .nil)
     k!"TRACE" ()
     .nil))
   k!"CHANGE" ()
   (.node (.node (.node .nil
      k!"FIGURE" ()
      .nil)
     k!"FILTER" ()
     .nil)
    k!"LINKER" ()
    (.node .nil
     k!"NM-ECU" ()
     .nil)))
  k!"NM-PDU" ()
  (.node (.node (.node (.node .nil
      k!"REASON" ()
      .nil)
     k!"REMARK" ()
     .nil)
    k!"SYSTEM" ()
    (.node (.node .nil
      k!"TCP-TP" ()
      .nil)
     k!"UDP-TP" ()
     .nil))
   k!"CHAPTER" ()
   (.node (.node (.node .nil
      k!"ELEMENT" ()
      .nil)
     k!"FORMULA" ()
     .nil)
    k!"GATEWAY" ()
    (.node .nil
     k!"GRAPHIC" ()
     .nil)))))

def wholeTags01 : Bst (Unit) :=
 (.node (.node (.node (.node (.node (.node .nil
      k!"KEYWORD" ()
      .nil)
     k!"TOPIC-1" ()
     .nil)
    k!"COMPILER" ()
    (.node (.node .nil
      k!"DEF-ITEM" ()
      .nil)
     k!"DEF-LIST" ()
     .nil))
   k!"FLAT-MAP" ()
   (.node (.node (.node .nil
      k!"I-SIGNAL" ()
      .nil)
     k!"MC-GROUP" ()
     .nil)
    k!"TEX-MATH" ()
    (.node .nil
     k!"USE-CASE" ()
     .nil)))
  k!"VERBATIM" ()
  (.node (.node (.node (.node .nil
      k!"CAN-FRAME" ()
      .nil)
     k!"CONFLICTS" ()
     .nil)
    k!"DATA-IREF" ()
    (.node (.node .nil
      k!"DCM-I-PDU" ()
      .nil)
     k!"ECUC-COND" ()
     .nil))
   k!"L-GRAPHIC" ()
   (.node (.node (.node .nil
      k!"LONG-NAME" ()
      .nil)
     k!"MODE-IREF" ()
     .nil)
    k!"NM-CONFIG" ()
    (.node .nil
     k!"NODE-NAME" ()
     .nil))))
 k!"NOTE-TEXT" ()
 (.node (.node (.node (.node (.node .nil
      k!"RAM-BLOCK" ()
      .nil)
     k!"RATIONALE" ()
     .nil)
    k!"ROM-BLOCK" ()
    (.node (.node .nil
      k!"ADMIN-DATA" ()
      .nil)
     k!"ANNOTATION" ()
     .nil))
   k!"AR-PACKAGE" ()
   (.node (.node (.node .nil
      k!"CAN-TP-ECU" ()
      .nil)
     k!"COLLECTION" ()
     .nil)
    k!"DERIVATION" ()
    (.node .nil
     k!"ECUC-QUERY" ()
     .nil)))
  k!"FRAME-PORT" ()
  (.node (.node (.node (.node .nil
      k!"GENERIC-TP" ()
      .nil)
     k!"HW-ELEMENT" ()
     .nil)
    k!"I-PDU-PORT" ()
    (.node .nil
     k!"INIT-EVENT" ()
     .nil))
   k!"ITEM-LABEL" ()
   (.node (.node (.node .nil
      k!"LIN-MASTER" ()
      .nil)
     k!"MC-SUPPORT" ()
     .nil)
    k!"MODE-GROUP" ()
    (.node .nil
     k!"PORT-GROUP" ()
     .nil)))))

def wholeTags02 : Bst (Unit) :=
 .node wholeTags00 k!"HW-TYPE" () wholeTags01

def wholeTags03 : Bst (Unit) :=
 (.node (.node (.node (.node (.node (.node .nil
      k!"SWC-TIMING" ()
      .nil)
     k!"UDP-NM-ECU" ()
     .nil)
    k!"VALUE-IREF" ()
    (.node (.node .nil
      k!"WAIT-POINT" ()
      .nil)
     k!"ACK-REQUEST" ()
     .nil))
   k!"CAN-CLUSTER" ()
   (.node (.node (.node .nil
      k!"CAN-NM-NODE" ()
      .nil)
     k!"CAN-TP-NODE" ()
     .nil)
    k!"COMPU-SCALE" ()
    (.node .nil
     k!"DATA-CONSTR" ()
     .nil)))
  k!"DATA-FILTER" ()
  (.node (.node (.node (.node .nil
      k!"DESCRIPTION" ()
      .nil)
     k!"ECU-MAPPING" ()
     .nil)
    k!"HW-CATEGORY" ()
    (.node (.node .nil
      k!"KEYWORD-SET" ()
      .nil)
     k!"LIN-CLUSTER" ()
     .nil))
   k!"LIN-TP-NODE" ()
   (.node (.node (.node .nil
      k!"MC-FUNCTION" ()
      .nil)
     k!"RETURN-TYPE" ()
     .nil)
    k!"SDG-CAPTION" ()
    (.node .nil
     k!"SENDER-IREF" ()
     .nil))))
 k!"STATIC-PART" ()
 (.node (.node (.node (.node (.node .nil
      k!"SW-CARB-DOC" ()
      .nil)
     k!"TCP-TP-PORT" ()
     .nil)
    k!"TIME-OFFSET" ()
    (.node (.node .nil
      k!"TIME-PERIOD" ()
      .nil)
     k!"UDP-NM-NODE" ()
     .nil))
   k!"UDP-TP-PORT" ()
   (.node (.node (.node .nil
      k!"ACCESS-COUNT" ()
      .nil)
     k!"AR-PARAMETER" ()
     .nil)
    k!"COMPU-METHOD" ()
    (.node .nil
     k!"COMPU-SCALES" ()
     .nil)))
  k!"DEPENDENCIES" ()
  (.node (.node (.node (.node .nil
      k!"DO-IP-ENTITY" ()
      .nil)
     k!"DOC-REVISION" ()
     .nil)
    k!"DYNAMIC-PART" ()
    (.node (.node .nil
      k!"FEATURE-IREF" ()
      .nil)
     k!"GENERIC-MATH" ()
     .nil))
   k!"HW-PIN-GROUP" ()
   (.node (.node (.node .nil
      k!"I-PDU-TIMING" ()
      .nil)
     k!"INTRODUCTION" ()
     .nil)
    k!"LABELED-ITEM" ()
    (.node .nil
     k!"LABELED-LIST" ()
     .nil)))))

def wholeTags04 : Bst (Unit) :=
 (.node (.node (.node (.node (.node (.node .nil
      k!"MODIFICATION" ()
      .nil)
     k!"MSR-QUERY-P1" ()
     .nil)
    k!"MSR-QUERY-P2" ()
    (.node (.node .nil
      k!"PERIOD-BEGIN" ()
      .nil)
     k!"PHYS-CONSTRS" ()
     .nil))
   k!"READ-NV-DATA" ()
   (.node (.node (.node .nil
      k!"REPLACE-WITH" ()
      .nil)
     k!"SCALE-CONSTR" ()
     .nil)
    k!"SO-AD-CONFIG" ()
    (.node .nil
     k!"SW-ARRAYSIZE" ()
     .nil)))
  k!"SW-BASE-TYPE" ()
  (.node (.node (.node (.node .nil
      k!"SW-TEST-DESC" ()
      .nil)
     k!"SYMBOL-PROPS" ()
     .nil)
    k!"TARGET-I-PDU" ()
    (.node (.node .nil
      k!"TIMING-EVENT" ()
      .nil)
     k!"TRIGGER-IREF" ()
     .nil))
   k!"BSW-MGR-NEEDS" ()
   (.node (.node (.node .nil
      k!"CAN-TP-CONFIG" ()
      .nil)
     k!"CHAPTER-MODEL" ()
     .nil)
    k!"COUPLING-PORT" ()
    (.node .nil
     k!"CYCLIC-TIMING" ()
     .nil))))
 k!"DATA-TYPE-MAP" ()
 (.node (.node (.node (.node (.node .nil
      k!"DOCUMENTATION" ()
      .nil)
     k!"EVENT-HANDLER" ()
     .nil)
    k!"FLEXRAY-FRAME" ()
    (.node (.node .nil
      k!"I-PDU-MAPPING" ()
      .nil)
     k!"I-SIGNAL-PORT" ()
     .nil))
   k!"IDS-MGR-NEEDS" ()
   (.node (.node (.node .nil
      k!"INDENT-SAMPLE" ()
      .nil)
     k!"ITEM-CONTENTS" ()
     .nil)
    k!"LIN-TP-CONFIG" ()
    (.node .nil
     k!"MSR-QUERY-ARG" ()
     .nil)))
  k!"PROVIDER-IREF" ()
  (.node (.node (.node (.node .nil
      k!"RECEIVER-IREF" ()
      .nil)
     k!"RPT-COMPONENT" ()
     .nil)
    k!"RUNTIME-ERROR" ()
    (.node .nil
     k!"SECURED-I-PDU" ()
     .nil))
   k!"SW-TEXT-PROPS" ()
   (.node (.node (.node .nil
      k!"SW-VALUE-CONT" ()
      .nil)
     k!"SYSTEM-SIGNAL" ()
     .nil)
    k!"TOPIC-CONTENT" ()
    (.node .nil
     k!"CAN-NM-CLUSTER" ()
     .nil)))))

def wholeTags05 : Bst (Unit) :=
 .node wholeTags03 k!"MODE-MAPPING" () wholeTags04

def wholeTags06 : Bst (Unit) :=
 .node wholeTags02 k!"SW-SYSCOND" () wholeTags05

def wholeTags07 : Bst (Unit) :=
 (.node (.node (.node (.node (.node (.node .nil
      k!"CAN-TP-CHANNEL" ()
      .nil)
     k!"COMPONENT-IREF" ()
     .nil)
    k!"DEF-CALPRM-SET" ()
    (.node (.node .nil
      k!"DLT-USER-NEEDS" ()
      .nil)
     k!"ETHERNET-FRAME" ()
     .nil))
   k!"EXCLUSIVE-AREA" ()
   (.node (.node (.node .nil
      k!"I-SIGNAL-GROUP" ()
      .nil)
     k!"I-SIGNAL-I-PDU" ()
     .nil)
    k!"I-SIGNAL-PROPS" ()
    (.node .nil
     k!"J-1939-NM-NODE" ()
     .nil)))
  k!"MEMORY-SECTION" ()
  (.node (.node (.node (.node .nil
      k!"NV-BLOCK-NEEDS" ()
      .nil)
     k!"OPERATION-IREF" ()
     .nil)
    k!"PDU-TRIGGERING" ()
    (.node (.node .nil
      k!"PHYSICAL-PROPS" ()
      .nil)
     k!"REF-CALPRM-SET" ()
     .nil))
   k!"REFERENCE-BASE" ()
   (.node (.node (.node .nil
      k!"REQUESTER-IREF" ()
      .nil)
     k!"RP-IMPL-POLICY" ()
     .nil)
    k!"RTE-EVENT-IREF" ()
    (.node .nil
     k!"RULE-ARGUMENTS" ()
     .nil))))
 k!"SOCKET-ADDRESS" ()
 (.node (.node (.node (.node (.node .nil
      k!"STRUCTURED-REQ" ()
      .nil)
     k!"SW-ADDR-METHOD" ()
     .nil)
    k!"SW-CALPRM-AXIS" ()
    (.node (.node .nil
      k!"SW-FEATURE-DEF" ()
      .nil)
     k!"SW-SERVICE-ARG" ()
     .nil))
   k!"SW-SYSTEMCONST" ()
   (.node (.node (.node .nil
      k!"SW-VALUES-PHYS" ()
      .nil)
     k!"SYSTEM-MAPPING" ()
     .nil)
    k!"UDP-NM-CLUSTER" ()
    (.node .nil
     k!"USED-LANGUAGES" ()
     .nil)))
  k!"ANNOTATION-TEXT" ()
  (.node (.node (.node (.node .nil
      k!"CHAPTER-CONTENT" ()
      .nil)
     k!"CLIENT-COM-SPEC" ()
     .nil)
    k!"DO-IP-TP-CONFIG" ()
    (.node (.node .nil
      k!"ECUC-MODULE-DEF" ()
      .nil)
     k!"FLEXRAY-CLUSTER" ()
     .nil))
   k!"FORMULA-CAPTION" ()
   (.node (.node (.node .nil
      k!"LIFE-CYCLE-INFO" ()
      .nil)
     k!"MODE-TRANSITION" ()
     .nil)
    k!"MSR-QUERY-PROPS" ()
    (.node .nil
     k!"NM-RANGE-CONFIG" ()
     .nil)))))

def wholeTags08 : Bst (Unit) :=
 (.node (.node (.node (.node (.node (.node .nil
      k!"RECEPTION-PROPS" ()
      .nil)
     k!"RPT-IMPL-POLICY" ()
     .nil)
    k!"RUNNABLE-ENTITY" ()
    (.node (.node .nil
      k!"SERVER-COM-SPEC" ()
      .nil)
     k!"SW-AXIS-GENERIC" ()
     .nil))
   k!"SW-AXIS-GROUPED" ()
   (.node (.node (.node .nil
      k!"SW-FEATURE-DESC" ()
      .nil)
     k!"SWC-BSW-MAPPING" ()
     .nil)
    k!"TRANSIENT-FAULT" ()
    (.node .nil
     k!"VARIABLE-ACCESS" ()
     .nil)))
  k!"VARIATION-POINT" ()
  (.node (.node (.node (.node .nil
      k!"VLAN-MEMBERSHIP" ()
      .nil)
     k!"WRITTEN-NV-DATA" ()
     .nil)
    k!"ACCESS-COUNT-SET" ()
    (.node (.node .nil
      k!"AUTOSAR-VARIABLE" ()
      .nil)
     k!"BACKGROUND-EVENT" ()
     .nil))
   k!"BSW-MODULE-ENTRY" ()
   (.node (.node (.node .nil
      k!"BSW-TIMING-EVENT" ()
      .nil)
     k!"BUS-OFF-RECOVERY" ()
     .nil)
    k!"CONDITION-ACCESS" ()
    (.node .nil
     k!"DATA-CONSTR-RULE" ()
     .nil))))
 k!"ETHERNET-CLUSTER" ()
 (.node (.node (.node (.node (.node .nil
      k!"HW-ATTRIBUTE-DEF" ()
      .nil)
     k!"I-SIGNAL-MAPPING" ()
     .nil)
    k!"INFORMAL-FORMULA" ()
    (.node (.node .nil
      k!"INNER-GROUP-IREF" ()
      .nil)
     k!"INTERNAL-CONSTRS" ()
     .nil))
   k!"MC-DATA-INSTANCE" ()
   (.node (.node (.node .nil
      k!"MODE-DECLARATION" ()
      .nil)
     k!"NETWORK-ENDPOINT" ()
     .nil)
    k!"P-PORT-PROTOTYPE" ()
    (.node .nil
     k!"PARAMETER-ACCESS" ()
     .nil)))
  k!"R-PORT-PROTOTYPE" ()
  (.node (.node (.node (.node .nil
      k!"RPT-SUPPORT-DATA" ()
      .nil)
     k!"SD-CLIENT-CONFIG" ()
     .nil)
    k!"SD-SERVER-CONFIG" ()
    (.node .nil
     k!"SOFTWARE-CONTEXT" ()
     .nil))
   k!"SW-HOST-VARIABLE" ()
   (.node (.node (.node .nil
      k!"SW-RECORD-LAYOUT" ()
      .nil)
     k!"SWC-TRIGGER-IREF" ()
     .nil)
    k!"USER-DEFINED-PDU" ()
    (.node .nil
     k!"ACCESSED-VARIABLE" ()
     .nil)))))

def wholeTags09 : Bst (Unit) :=
 .node wholeTags07 k!"PORT-API-OPTION" () wholeTags08

def wholeTags10 : Bst (Unit) :=
 (.node (.node (.node (.node (.node (.node .nil
      k!"APPLICATION-ERROR" ()
      .nil)
     k!"BSW-CALLED-ENTITY" ()
     .nil)
    k!"BUFFER-PROPERTIES" ()
    (.node (.node .nil
      k!"CAN-TP-CONNECTION" ()
      .nil)
     k!"CONDITION-FORMULA" ()
     .nil))
   k!"CONSISTENCY-NEEDS" ()
   (.node (.node (.node .nil
      k!"DATA-ELEMENT-IREF" ()
      .nil)
     k!"DEVELOPMENT-ERROR" ()
     .nil)
    k!"HW-PIN-CONNECTION" ()
    (.node .nil
     k!"LEAF-ELEMENT-IREF" ()
     .nil)))
  k!"LIN-TP-CONNECTION" ()
  (.node (.node (.node (.node .nil
      k!"MODE-ACCESS-POINT" ()
      .nil)
     k!"MODE-SWITCH-POINT" ()
     .nil)
    k!"MODE-SWITCHED-ACK" ()
    (.node (.node .nil
      k!"MSR-QUERY-CHAPTER" ()
      .nil)
     k!"MSR-QUERY-TOPIC-1" ()
     .nil))
   k!"MULTIPLEXED-I-PDU" ()
   (.node (.node (.node .nil
      k!"NV-DATA-INTERFACE" ()
      .nil)
     k!"PR-PORT-PROTOTYPE" ()
     .nil)
    k!"REPETITION-PERIOD" ()
    (.node .nil
     k!"RULE-BASED-VALUES" ()
     .nil))))
 k!"SOCKET-CONNECTION" ()
 (.node (.node (.node (.node (.node .nil
      k!"SW-DATA-DEF-PROPS" ()
      .nil)
     k!"SW-REFRESH-TIMING" ()
     .nil)
    k!"TRIGGER-INTERFACE" ()
    (.node (.node .nil
      k!"USED-DATA-ELEMENT" ()
      .nil)
     k!"VARIABLE-INSTANCE" ()
     .nil))
   k!"ACCESSED-PARAMETER" ()
   (.node (.node (.node .nil
      k!"BSW-IMPLEMENTATION" ()
      .nil)
     k!"COM-MGR-USER-NEEDS" ()
     .nil)
    k!"CONSTANT-REFERENCE" ()
    (.node .nil
     k!"COUPLING-PORT-FIFO" ()
     .nil)))
  k!"DISABLED-MODE-IREF" ()
  (.node (.node (.node (.node .nil
      k!"ECUC-REFERENCE-DEF" ()
      .nil)
     k!"END-TO-END-PROFILE" ()
     .nil)
    k!"ERROR-TRACER-NEEDS" ()
    (.node .nil
     k!"FLEXRAY-FIFO-RANGE" ()
     .nil))
   k!"HW-ATTRIBUTE-VALUE" ()
   (.node (.node (.node .nil
      k!"IN-MEASUREMENT-SET" ()
      .nil)
     k!"INSTANCE-IN-MEMORY" ()
     .nil)
    k!"LIN-SCHEDULE-TABLE" ()
    (.node .nil
     k!"PARAMETER-INSTANCE" ()
     .nil)))))

def wholeTags11 : Bst (Unit) :=
 (.node (.node (.node (.node (.node (.node .nil
      k!"PREDEFINED-VARIANT" ()
      .nil)
     k!"REFINED-EVENT-IREF" ()
     .nil)
    k!"SW-AXIS-INDIVIDUAL" ()
    (.node (.node .nil
      k!"SW-DATA-DEPENDENCY" ()
      .nil)
     k!"SW-RECORD-LAYOUT-V" ()
     .nil))
   k!"SWC-IMPLEMENTATION" ()
   (.node (.node (.node .nil
      k!"SWC-TO-ECU-MAPPING" ()
      .nil)
     k!"TEXT-TABLE-MAPPING" ()
     .nil)
    k!"TRANSLATION-TARGET" ()
    (.node .nil
     k!"TRANSMISSION-PROPS" ()
     .nil)))
  k!"USER-DEFINED-I-PDU" ()
  (.node (.node (.node (.node .nil
      k!"VALIDATION-FORMULA" ()
      .nil)
     k!"ARTIFACT-DESCRIPTOR" ()
     .nil)
    k!"BLUEPRINT-CONDITION" ()
    (.node (.node .nil
      k!"BSW-VARIABLE-ACCESS" ()
      .nil)
     k!"CALCULATION-FORMULA" ()
     .nil))
   k!"COMPU-DEFAULT-VALUE" ()
   (.node (.node (.node .nil
      k!"DATA-RECEIVED-EVENT" ()
      .nil)
     k!"DATA-TRANSFORMATION" ()
     .nil)
    k!"DESTINATION-URI-REF" ()
    (.node .nil
     k!"DO-IP-LOGIC-ADDRESS" ()
     .nil))))
 k!"DO-IP-TP-CONNECTION" ()
 (.node (.node (.node (.node (.node .nil
      k!"DOCUMENTATION-BLOCK" ()
      .nil)
     k!"GENERAL-PURPOSE-PDU" ()
     .nil)
    k!"I-SIGNAL-TRIGGERING" ()
    (.node (.node .nil
      k!"INVALIDATION-POLICY" ()
      .nil)
     k!"IPV-6-CONFIGURATION" ()
     .nil))
   k!"LIFE-CYCLE-INFO-SET" ()
   (.node (.node (.node .nil
      k!"LOC-MEASUREMENT-SET" ()
      .nil)
     k!"MAC-MULTICAST-GROUP" ()
     .nil)
    k!"MEASURED-HEAP-USAGE" ()
    (.node .nil
     k!"MSR-QUERY-RESULT-P2" ()
     .nil)))
  k!"NV-BLOCK-DESCRIPTOR" ()
  (.node (.node (.node (.node .nil
      k!"NV-PROVIDE-COM-SPEC" ()
      .nil)
     k!"NV-REQUIRE-COM-SPEC" ()
     .nil)
    k!"OUT-MEASUREMENT-SET" ()
    (.node .nil
     k!"PARAMETER-INTERFACE" ()
     .nil))
   k!"PER-INSTANCE-MEMORY" ()
   (.node (.node (.node .nil
      k!"REF-MEASUREMENT-SET" ()
      .nil)
     k!"RX-IDENTIFIER-RANGE" ()
     .nil)
    k!"SECTION-NAME-PREFIX" ()
    (.node .nil
     k!"SHORT-NAME-FRAGMENT" ()
     .nil)))))

def wholeTags12 : Bst (Unit) :=
 .node wholeTags10 k!"PHYSICAL-DIMENSION" () wholeTags11

def wholeTags13 : Bst (Unit) :=
 .node wholeTags09 k!"APPLICATION-ENTRY" () wholeTags12

def wholeTags14 : Bst (Unit) :=
 .node wholeTags06 k!"CAN-TP-ADDRESS" () wholeTags13

def wholeTags15 : Bst (Unit) :=
 (.node (.node (.node (.node (.node (.node .nil
      k!"SUB-ELEMENT-MAPPING" ()
      .nil)
     k!"SUPPORTING-MATERIAL" ()
     .nil)
    k!"SW-CALPRM-REF-PROXY" ()
    (.node (.node .nil
      k!"SWC-MODE-GROUP-IREF" ()
      .nil)
     k!"SWC-TO-IMPL-MAPPING" ()
     .nil))
   k!"SYMBOLIC-NAME-PROPS" ()
   (.node (.node (.node .nil
      k!"SYSTEM-SIGNAL-GROUP" ()
      .nil)
     k!"APPLICATION-ENDPOINT" ()
     .nil)
    k!"BSW-BACKGROUND-EVENT" ()
    (.node .nil
     k!"BSW-INTERRUPT-ENTITY" ()
     .nil)))
  k!"CAN-FRAME-TRIGGERING" ()
  (.node (.node (.node (.node .nil
      k!"CAN-PHYSICAL-CHANNEL" ()
      .nil)
     k!"CONSUMED-EVENT-GROUP" ()
     .nil)
    k!"CRYPTO-SERVICE-NEEDS" ()
    (.node (.node .nil
      k!"DATA-PROTOTYPE-GROUP" ()
      .nil)
     k!"ECUC-CONTAINER-VALUE" ()
     .nil))
   k!"ECUC-FLOAT-PARAM-DEF" ()
   (.node (.node (.node .nil
      k!"ECUC-REFERENCE-VALUE" ()
      .nil)
     k!"HW-ELEMENT-CONNECTOR" ()
     .nil)
    k!"I-SIGNAL-I-PDU-GROUP" ()
    (.node .nil
     k!"LIN-FRAME-TRIGGERING" ()
     .nil))))
 k!"LIN-PHYSICAL-CHANNEL" ()
 (.node (.node (.node (.node (.node .nil
      k!"MEASURED-STACK-USAGE" ()
      .nil)
     k!"MODE-PORT-ANNOTATION" ()
     .nil)
    k!"NV-RAM-BLOCK-ELEMENT" ()
    (.node (.node .nil
      k!"PDU-TO-FRAME-MAPPING" ()
      .nil)
     k!"RESOURCE-CONSUMPTION" ()
     .nil))
   k!"RESULTING-PROPERTIES" ()
   (.node (.node (.node .nil
      k!"RULE-BASED-AXIS-CONT" ()
      .nil)
     k!"RUNNABLE-ENTITY-IREF" ()
     .nil)
    k!"SW-CALIBRATION-NOTES" ()
    (.node .nil
     k!"SW-DIAGNOSTICS-NOTES" ()
     .nil)))
  k!"SW-MAINTENANCE-NOTES" ()
  (.node (.node (.node (.node .nil
      k!"SW-SYSTEMCONST-VALUE" ()
      .nil)
     k!"VARIABLE-ACCESS-IREF" ()
     .nil)
    k!"WRITTEN-READ-NV-DATA" ()
    (.node (.node .nil
      k!"ASSEMBLY-SW-CONNECTOR" ()
      .nil)
     k!"AUTOSAR-VARIABLE-IREF" ()
     .nil))
   k!"BSW-INTERNAL-BEHAVIOR" ()
   (.node (.node (.node .nil
      k!"BSW-MODE-SWITCH-EVENT" ()
      .nil)
     k!"BSW-MODULE-DEPENDENCY" ()
     .nil)
    k!"COMPU-RATIONAL-COEFFS" ()
    (.node .nil
     k!"CONTAINED-I-PDU-PROPS" ()
     .nil)))))

def wholeTags16 : Bst (Unit) :=
 (.node (.node (.node (.node (.node (.node .nil
      k!"DATA-TYPE-MAPPING-SET" ()
      .nil)
     k!"DIAGNOSTIC-CONNECTION" ()
     .nil)
    k!"DISABLED-IN-MODE-IREF" ()
    (.node (.node .nil
      k!"DOCUMENTATION-CONTENT" ()
      .nil)
     k!"DOCUMENTATION-CONTEXT" ()
     .nil))
   k!"ECUC-QUERY-EXPRESSION" ()
   (.node (.node (.node .nil
      k!"ECUC-STRING-PARAM-DEF" ()
      .nil)
     k!"ECUC-VALUE-COLLECTION" ()
     .nil)
    k!"END-TO-END-PROTECTION" ()
    (.node .nil
     k!"GENERAL-PURPOSE-I-PDU" ()
     .nil)))
  k!"INITIAL-FIND-BEHAVIOR" ()
  (.node (.node (.node (.node .nil
      k!"MODE-REQUEST-TYPE-MAP" ()
      .nil)
     k!"MODE-SWITCH-INTERFACE" ()
     .nil)
    k!"NV-BLOCK-DATA-MAPPING" ()
    (.node (.node .nil
      k!"OBD-PID-SERVICE-NEEDS" ()
      .nil)
     k!"RPT-EXECUTABLE-ENTITY" ()
     .nil))
   k!"RPT-EXECUTION-CONTEXT" ()
   (.node (.node (.node .nil
      k!"RUNNABLE-ENTITY-GROUP" ()
      .nil)
     k!"SW-BIT-REPRESENTATION" ()
     .nil)
    k!"SW-GENERIC-AXIS-PARAM" ()
    (.node .nil
     k!"SW-VARIABLE-REF-PROXY" ()
     .nil))))
 k!"SWC-INTERNAL-BEHAVIOR" ()
 (.node (.node (.node (.node (.node .nil
      k!"SWC-MODE-SWITCH-EVENT" ()
      .nil)
     k!"VARIATION-POINT-PROXY" ()
     .nil)
    k!"WORST-CASE-HEAP-USAGE" ()
    (.node (.node .nil
      k!"AUTOSAR-PARAMETER-IREF" ()
      .nil)
     k!"BSW-MODE-SENDER-POLICY" ()
     .nil))
   k!"BSW-MODULE-DESCRIPTION" ()
   (.node (.node (.node .nil
      k!"BSW-SCHEDULABLE-ENTITY" ()
      .nil)
     k!"BSW-SERVICE-DEPENDENCY" ()
     .nil)
    k!"COMPU-INTERNAL-TO-PHYS" ()
    (.node .nil
     k!"COMPU-PHYS-TO-INTERNAL" ()
     .nil)))
  k!"CONSTANT-SPECIFICATION" ()
  (.node (.node (.node (.node .nil
      k!"DATA-PROTOTYPE-MAPPING" ()
      .nil)
     k!"DEPENDENCY-ON-ARTIFACT" ()
     .nil)
    k!"DESTINATION-URI-POLICY" ()
    (.node .nil
     k!"DIAGNOSTIC-EVENT-NEEDS" ()
     .nil))
   k!"DIAGNOSTIC-VALUE-NEEDS" ()
   (.node (.node (.node .nil
      k!"ECUC-BOOLEAN-PARAM-DEF" ()
      .nil)
     k!"ECUC-FUNCTION-NAME-DEF" ()
     .nil)
    k!"ECUC-INTEGER-PARAM-DEF" ()
    (.node .nil
     k!"HARDWARE-CONFIGURATION" ()
     .nil)))))

def wholeTags17 : Bst (Unit) :=
 .node wholeTags15 k!"COUPLING-PORT-DETAILS" () wholeTags16

def wholeTags18 : Bst (Unit) :=
 (.node (.node (.node (.node (.node (.node .nil
      k!"INITIAL-OFFER-BEHAVIOR" ()
      .nil)
     k!"MAXIMUM-EXECUTION-TIME" ()
     .nil)
    k!"MC-DATA-ACCESS-DETAILS" ()
    (.node (.node .nil
      k!"MINIMUM-EXECUTION-TIME" ()
      .nil)
     k!"MODE-DECLARATION-GROUP" ()
     .nil))
   k!"MODE-INTERFACE-MAPPING" ()
   (.node (.node (.node .nil
      k!"NETWORK-REPRESENTATION" ()
      .nil)
     k!"NOMINAL-EXECUTION-TIME" ()
     .nil)
    k!"OBD-INFO-SERVICE-NEEDS" ()
    (.node .nil
     k!"QUEUED-SENDER-COM-SPEC" ()
     .nil)))
  k!"REQUEST-RESPONSE-DELAY" ()
  (.node (.node (.node (.node .nil
      k!"SW-COMPONENT-PROTOTYPE" ()
      .nil)
     k!"SW-RECORD-LAYOUT-GROUP" ()
     .nil)
    k!"SWC-SERVICE-DEPENDENCY" ()
    (.node (.node .nil
      k!"USED-PARAMETER-ELEMENT" ()
      .nil)
     k!"WORST-CASE-STACK-USAGE" ()
     .nil))
   k!"ANALYZED-EXECUTION-TIME" ()
   (.node (.node (.node .nil
      k!"ARGUMENT-DATA-PROTOTYPE" ()
      .nil)
     k!"BSW-DATA-RECEIVED-EVENT" ()
     .nil)
    k!"BULK-NV-DATA-DESCRIPTOR" ()
    (.node .nil
     k!"CAN-NM-CLUSTER-COUPLING" ()
     .nil))))
 k!"CLIENT-SERVER-INTERFACE" ()
 (.node (.node (.node (.node (.node .nil
      k!"CLIENT-SERVER-OPERATION" ()
      .nil)
     k!"COUPLING-PORT-SCHEDULER" ()
     .nil)
    k!"DATA-TRANSFORMATION-SET" ()
    (.node (.node .nil
      k!"DELEGATION-SW-CONNECTOR" ()
      .nil)
     k!"EVENT-CONTROLLED-TIMING" ()
     .nil))
   k!"HW-PIN-GROUP-CONNECTION" ()
   (.node (.node (.node .nil
      k!"INFRASTRUCTURE-SERVICES" ()
      .nil)
     k!"LIN-UNCONDITIONAL-FRAME" ()
     .nil)
    k!"MEASURED-EXECUTION-TIME" ()
    (.node .nil
     k!"MEMORY-SECTION-LOCATION" ()
     .nil)))
  k!"MODE-SWITCHED-ACK-EVENT" ()
  (.node (.node (.node (.node .nil
      k!"NV-DATA-PORT-ANNOTATION" ()
      .nil)
     k!"OBD-RATIO-SERVICE-NEEDS" ()
     .nil)
    k!"OPERATION-INVOKED-EVENT" ()
    (.node .nil
     k!"POSSIBLE-ERROR-REACTION" ()
     .nil))
   k!"SUPERVISED-ENTITY-NEEDS" ()
   (.node (.node (.node .nil
      k!"SW-DATA-DEPENDENCY-ARGS" ()
      .nil)
     k!"SW-POINTER-TARGET-PROPS" ()
     .nil)
    k!"TRIGGER-PORT-ANNOTATION" ()
    (.node .nil
     k!"UDP-NM-CLUSTER-COUPLING" ()
     .nil)))))

def wholeTags19 : Bst (Unit) :=
 (.node (.node (.node (.node (.node (.node .nil
      k!"VARIABLE-DATA-PROTOTYPE" ()
      .nil)
     k!"BEST-CASE-EXECUTION-TIME" ()
     .nil)
    k!"CLIENT-SERVER-ANNOTATION" ()
    (.node (.node .nil
      k!"DIAGNOSTIC-ROUTINE-NEEDS" ()
      .nil)
     k!"DIAGNOSTIC-SERVICE-TABLE" ()
     .nil))
   k!"DYNAMIC-PART-ALTERNATIVE" ()
   (.node (.node (.node .nil
      k!"ECU-STATE-MGR-USER-NEEDS" ()
      .nil)
     k!"ECUC-DESTINATION-URI-DEF" ()
     .nil)
    k!"ECUC-TEXTUAL-PARAM-VALUE" ()
    (.node .nil
     k!"ESTIMATED-EXECUTION-TIME" ()
     .nil)))
  k!"FLAT-INSTANCE-DESCRIPTOR" ()
  (.node (.node (.node (.node .nil
      k!"FLEXRAY-FRAME-TRIGGERING" ()
      .nil)
     k!"FLEXRAY-PHYSICAL-CHANNEL" ()
     .nil)
    k!"HW-ATTRIBUTE-LITERAL-DEF" ()
    (.node (.node .nil
      k!"IMPLEMENTATION-DATA-TYPE" ()
      .nil)
     k!"MODE-DECLARATION-MAPPING" ()
     .nil))
   k!"MODE-USER-ERROR-BEHAVIOR" ()
   (.node (.node (.node .nil
      k!"PARAMETER-DATA-PROTOTYPE" ()
      .nil)
     k!"PORT-PROTOTYPE-BLUEPRINT" ()
     .nil)
    k!"QUEUED-RECEIVER-COM-SPEC" ()
    (.node .nil
     k!"RUNNABLE-ENTITY-ARGUMENT" ()
     .nil))))
 k!"SIMULATED-EXECUTION-TIME" ()
 (.node (.node (.node (.node (.node .nil
      k!"SOCKET-CONNECTION-BUNDLE" ()
      .nil)
     k!"SWC-BSW-RUNNABLE-MAPPING" ()
     .nil)
    k!"TEXT-VALUE-SPECIFICATION" ()
    (.node (.node .nil
      k!"TRANSMISSION-ACKNOWLEDGE" ()
      .nil)
     k!"ARRAY-VALUE-SPECIFICATION" ()
     .nil))
   k!"CONSUMED-SERVICE-INSTANCE" ()
   (.node (.node (.node .nil
      k!"DATA-PROTOTYPE-GROUP-IREF" ()
      .nil)
     k!"DATA-SEND-COMPLETED-EVENT" ()
     .nil)
    k!"DELEGATED-PORT-ANNOTATION" ()
    (.node .nil
     k!"ECUC-CHOICE-CONTAINER-DEF" ()
     .nil)))
  k!"ECUC-CHOICE-REFERENCE-DEF" ()
  (.node (.node (.node (.node .nil
      k!"ECUC-VALIDATION-CONDITION" ()
      .nil)
     k!"END-TO-END-PROTECTION-SET" ()
     .nil)
    k!"EOC-EXECUTABLE-ENTITY-REF" ()
    (.node .nil
     k!"ETHERNET-PHYSICAL-CHANNEL" ()
     .nil))
   k!"EXTERNAL-TRIGGERING-POINT" ()
   (.node (.node (.node .nil
      k!"I-SIGNAL-TO-I-PDU-MAPPING" ()
      .nil)
     k!"IMPLICIT-DATA-ACCESS-IREF" ()
     .nil)
    k!"INTERNAL-TRIGGERING-POINT" ()
    (.node .nil
     k!"NONQUEUED-SENDER-COM-SPEC" ()
     .nil)))))

def wholeTags20 : Bst (Unit) :=
 .node wholeTags18 k!"UPSTREAM-REFERENCE-IREF" () wholeTags19

def wholeTags21 : Bst (Unit) :=
 .node wholeTags17 k!"INDICATOR-STATUS-NEEDS" () wholeTags20

def wholeTags22 : Bst (Unit) :=
 (.node (.node (.node (.node (.node (.node .nil
      k!"OBD-MONITOR-SERVICE-NEEDS" ()
      .nil)
     k!"PARAMETER-PORT-ANNOTATION" ()
     .nil)
    k!"PASS-THROUGH-SW-CONNECTOR" ()
    (.node (.node .nil
      k!"PROVIDED-SERVICE-INSTANCE" ()
      .nil)
     k!"ROUGH-ESTIMATE-HEAP-USAGE" ()
     .nil))
   k!"SENDER-RECEIVER-INTERFACE" ()
   (.node (.node (.node .nil
      k!"SERVICE-SW-COMPONENT-TYPE" ()
      .nil)
     k!"SWC-EXCLUSIVE-AREA-POLICY" ()
     .nil)
    k!"TRANSFORMATION-TECHNOLOGY" ()
    (.node .nil
     k!"WORST-CASE-EXECUTION-TIME" ()
     .nil)))
  k!"APPLICATION-RECORD-ELEMENT" ()
  (.node (.node (.node (.node .nil
      k!"AUTOSAR-ENGINEERING-OBJECT" ()
      .nil)
     k!"ECU-EXTRACT-REFERENCE-IREF" ()
     .nil)
    k!"ECUC-DEFINITION-COLLECTION" ()
    (.node (.node .nil
      k!"ECUC-ENUMERATION-PARAM-DEF" ()
      .nil)
     k!"ECUC-NUMERICAL-PARAM-VALUE" ()
     .nil))
   k!"EXECUTION-ORDER-CONSTRAINT" ()
   (.node (.node (.node .nil
      k!"FLEXRAY-FIFO-CONFIGURATION" ()
      .nil)
     k!"FORMAL-BLUEPRINT-GENERATOR" ()
     .nil)
    k!"MC-PARAMETER-ELEMENT-GROUP" ()
    (.node .nil
     k!"NV-BLOCK-SW-COMPONENT-TYPE" ()
     .nil))))
 k!"PARAMETER-PROVIDE-COM-SPEC" ()
 (.node (.node (.node (.node (.node .nil
      k!"PARAMETER-REQUIRE-COM-SPEC" ()
      .nil)
     k!"PORT-INTERFACE-MAPPING-SET" ()
     .nil)
    k!"RECORD-VALUE-SPECIFICATION" ()
    (.node (.node .nil
      k!"ROLE-BASED-DATA-ASSIGNMENT" ()
      .nil)
     k!"ROLE-BASED-PORT-ASSIGNMENT" ()
     .nil))
   k!"ROUGH-ESTIMATE-STACK-USAGE" ()
   (.node (.node (.node .nil
      k!"RUNNABLE-ENTITY-GROUP-IREF" ()
      .nil)
     k!"SECURE-COMMUNICATION-PROPS" ()
     .nil)
    k!"SENDER-RECEIVER-ANNOTATION" ()
    (.node .nil
     k!"SW-COMPONENT-DOCUMENTATION" ()
     .nil)))
  k!"SW-DATA-DEPENDENCY-FORMULA" ()
  (.node (.node (.node (.node .nil
      k!"TIME-VALUE-VARIATION-POINT" ()
      .nil)
     k!"APPLICATION-ARRAY-DATA-TYPE" ()
     .nil)
    k!"BSW-MODE-SWITCHED-ACK-EVENT" ()
    (.node (.node .nil
      k!"BSW-OPERATION-INVOKED-EVENT" ()
      .nil)
     k!"CAN-COMMUNICATION-CONNECTOR" ()
     .nil))
   k!"DIAGNOSTIC-EVENT-INFO-NEEDS" ()
   (.node (.node (.node .nil
      k!"DIAGNOSTIC-IO-CONTROL-NEEDS" ()
      .nil)
     k!"ECUC-INSTANCE-REFERENCE-DEF" ()
     .nil)
    k!"FLOAT-VALUE-VARIATION-POINT" ()
    (.node .nil
     k!"LIN-COMMUNICATION-CONNECTOR" ()
     .nil)))))

def wholeTags23 : Bst (Unit) :=
 (.node (.node (.node (.node (.node (.node .nil
      k!"MODE-SWITCH-SENDER-COM-SPEC" ()
      .nil)
     k!"NONQUEUED-RECEIVER-COM-SPEC" ()
     .nil)
    k!"OBD-RATIO-DENOMINATOR-NEEDS" ()
    (.node (.node .nil
      k!"PORT-DEFINED-ARGUMENT-VALUE" ()
      .nil)
     k!"RPT-EXECUTABLE-ENTITY-EVENT" ()
     .nil))
   k!"SW-SYSTEMCONSTANT-VALUE-SET" ()
   (.node (.node (.node .nil
      k!"TRANSMISSION-MODE-CONDITION" ()
      .nil)
     k!"APPLICATION-RECORD-DATA-TYPE" ()
     .nil)
    k!"BSW-MODE-MANAGER-ERROR-EVENT" ()
    (.node .nil
     k!"CAN-COMMUNICATION-CONTROLLER" ()
     .nil)))
  k!"ECUC-DESTINATION-URI-DEF-SET" ()
  (.node (.node (.node (.node .nil
      k!"ECUC-ENUMERATION-LITERAL-DEF" ()
      .nil)
     k!"EXCLUSIVE-AREA-NESTING-ORDER" ()
     .nil)
    k!"INSTANTIATION-DATA-DEF-PROPS" ()
    (.node (.node .nil
      k!"MODE-DECLARATION-MAPPING-SET" ()
      .nil)
     k!"NETWORK-REPRESENTATION-PROPS" ()
     .nil))
   k!"POST-BUILD-VARIANT-CONDITION" ()
   (.node (.node (.node .nil
      k!"POST-BUILD-VARIANT-CRITERION" ()
      .nil)
     k!"SWC-BSW-SYNCHRONIZED-TRIGGER" ()
     .nil)
    k!"APPLICATION-SW-COMPONENT-TYPE" ()
    (.node .nil
     k!"BOOLEAN-VALUE-VARIATION-POINT" ()
     .nil))))
 k!"BSW-INTERNAL-TRIGGERING-POINT" ()
 (.node (.node (.node (.node (.node .nil
      k!"COMPOSITION-SW-COMPONENT-TYPE" ()
      .nil)
     k!"ECUC-INSTANCE-REFERENCE-VALUE" ()
     .nil)
    k!"ECUC-PARAM-CONF-CONTAINER-DEF" ()
    (.node (.node .nil
      k!"INTEGER-VALUE-VARIATION-POINT" ()
      .nil)
     k!"MODE-SWITCH-RECEIVER-COM-SPEC" ()
     .nil))
   k!"NUMERICAL-VALUE-SPECIFICATION" ()
   (.node (.node (.node .nil
      k!"ROLE-BASED-MC-DATA-ASSIGNMENT" ()
      .nil)
     k!"ROOT-SW-COMPOSITION-PROTOTYPE" ()
     .nil)
    k!"SYNCHRONOUS-SERVER-CALL-POINT" ()
    (.node .nil
     k!"TRANSMISSION-MODE-DECLARATION" ()
     .nil)))
  k!"TRANSMISSION-MODE-TRUE-TIMING" ()
  (.node (.node (.node (.node .nil
      k!"ASYNCHRONOUS-SERVER-CALL-POINT" ()
      .nil)
     k!"BSW-MODULE-CLIENT-SERVER-ENTRY" ()
     .nil)
    k!"CAN-CONTROLLER-FD-REQUIREMENTS" ()
    (.node .nil
     k!"CAN-CONTROLLER-XL-REQUIREMENTS" ()
     .nil))
   k!"DIAG-EVENT-DEBOUNCE-TIME-BASED" ()
   (.node (.node (.node .nil
      k!"ECUC-VALUE-CONFIGURATION-CLASS" ()
      .nil)
     k!"ETHERNET-PRIORITY-REGENERATION" ()
     .nil)
    k!"MC-SW-EMULATION-METHOD-SUPPORT" ()
    (.node .nil
     k!"SECURE-COMMUNICATION-PROPS-SET" ()
     .nil)))))

def wholeTags24 : Bst (Unit) :=
 .node wholeTags22 k!"MODE-MANAGER-ERROR-BEHAVIOR" () wholeTags23

def wholeTags25 : Bst (Unit) :=
 (.node (.node (.node (.node (.node (.node .nil
      k!"TRANSMISSION-MODE-FALSE-TIMING" ()
      .nil)
     k!"APPLICATION-PRIMITIVE-DATA-TYPE" ()
     .nil)
    k!"APPLICATION-VALUE-SPECIFICATION" ()
    (.node (.node .nil
      k!"CAN-CONTROLLER-FD-CONFIGURATION" ()
      .nil)
     k!"CAN-CONTROLLER-XL-CONFIGURATION" ()
     .nil))
   k!"CLIENT-SERVER-INTERFACE-MAPPING" ()
   (.node (.node (.node .nil
      k!"CLIENT-SERVER-OPERATION-MAPPING" ()
      .nil)
     k!"ECUC-MULTILINE-STRING-PARAM-DEF" ()
     .nil)
    k!"FLEXRAY-COMMUNICATION-CONNECTOR" ()
    (.node .nil
     k!"INTERNAL-TRIGGER-OCCURRED-EVENT" ()
     .nil)))
  k!"ROLE-BASED-DATA-TYPE-ASSIGNMENT" ()
  (.node (.node (.node (.node .nil
      k!"SERVICE-PROXY-SW-COMPONENT-TYPE" ()
      .nil)
     k!"BSW-QUEUED-DATA-RECEPTION-POLICY" ()
     .nil)
    k!"COMPOSITE-NETWORK-REPRESENTATION" ()
    (.node (.node .nil
      k!"DIAGNOSTIC-OPERATION-CYCLE-NEEDS" ()
      .nil)
     k!"ECUC-MODULE-CONFIGURATION-VALUES" ()
     .nil))
   k!"ECUC-SYMBOLIC-NAME-REFERENCE-DEF" ()
   (.node (.node (.node .nil
      k!"ETHERNET-COMMUNICATION-CONNECTOR" ()
      .nil)
     k!"FLEXRAY-COMMUNICATION-CONTROLLER" ()
     .nil)
    k!"IMPLEMENTATION-DATA-TYPE-ELEMENT" ()
    (.node .nil
     k!"INSTANTIATION-TIMING-EVENT-PROPS" ()
     .nil))))
 k!"MODE-DECLARATION-GROUP-PROTOTYPE" ()
 (.node (.node (.node (.node (.node .nil
      k!"ROUGH-ESTIMATE-OF-EXECUTION-TIME" ()
      .nil)
     k!"RPT-EXECUTABLE-ENTITY-PROPERTIES" ()
     .nil)
    k!"SIGNAL-SERVICE-TRANSLATION-PROPS" ()
    (.node (.node .nil
      k!"BSW-SYNCHRONOUS-SERVER-CALL-POINT" ()
      .nil)
     k!"DIAG-EVENT-DEBOUNCE-COUNTER-BASED" ()
     .nil))
   k!"DIAGNOSTIC-ENABLE-CONDITION-NEEDS" ()
   (.node (.node (.node .nil
      k!"E-2-E-PROFILE-COMPATIBILITY-PROPS" ()
      .nil)
     k!"ECU-ABSTRACTION-SW-COMPONENT-TYPE" ()
     .nil)
    k!"ETHERNET-COMMUNICATION-CONTROLLER" ()
    (.node .nil
     k!"SENDER-REC-RECORD-ELEMENT-MAPPING" ()
     .nil)))
  k!"SENDER-RECEIVER-TO-SIGNAL-MAPPING" ()
  (.node (.node (.node (.node .nil
      k!"SENSOR-ACTUATOR-SW-COMPONENT-TYPE" ()
      .nil)
     k!"SOCKET-CONNECTION-IPDU-IDENTIFIER" ()
     .nil)
    k!"APPLICATION-COMPOSITE-ELEMENT-IREF" ()
    (.node .nil
     k!"BSW-ASYNCHRONOUS-SERVER-CALL-POINT" ()
     .nil))
   k!"DIAGNOSTIC-STORAGE-CONDITION-NEEDS" ()
   (.node (.node (.node .nil
      k!"P-PORT-IN-COMPOSITION-INSTANCE-REF" ()
      .nil)
     k!"R-PORT-IN-COMPOSITION-INSTANCE-REF" ()
     .nil)
    k!"BSW-EXTERNAL-TRIGGER-OCCURRED-EVENT" ()
    (.node .nil
     k!"BSW-INTERNAL-TRIGGER-OCCURRED-EVENT" ()
     .nil)))))

def wholeTags26 : Bst (Unit) :=
 (.node (.node (.node (.node (.node (.node .nil
      k!"EXECUTABLE-ENTITY-ACTIVATION-REASON" ()
      .nil)
     k!"FLEXRAY-ABSOLUTELY-SCHEDULED-TIMING" ()
     .nil)
    k!"INCLUDED-MODE-DECLARATION-GROUP-SET" ()
    (.node (.node .nil
      k!"IO-HW-ABSTRACTION-SERVER-ANNOTATION" ()
      .nil)
     k!"RESULTING-RPT-SW-PROTOTYPING-ACCESS" ()
     .nil))
   k!"SECURE-ON-BOARD-COMMUNICATION-NEEDS" ()
   (.node (.node (.node .nil
      k!"DATA-PROTOTYPE-IN-PORT-INTERFACE-REF" ()
      .nil)
     k!"DIAG-EVENT-DEBOUNCE-MONITOR-INTERNAL" ()
     .nil)
    k!"DTC-STATUS-CHANGE-NOTIFICATION-NEEDS" ()
    (.node .nil
     k!"END-TO-END-PROTECTION-I-SIGNAL-I-PDU" ()
     .nil)))
  k!"MODE-SWITCH-EVENT-TRIGGERED-ACTIVITY" ()
  (.node (.node (.node (.node .nil
      k!"SECURE-COMMUNICATION-FRESHNESS-PROPS" ()
      .nil)
     k!"SIGNAL-SERVICE-TRANSLATION-PROPS-SET" ()
     .nil)
    k!"ASYNCHRONOUS-SERVER-CALL-RESULT-POINT" ()
    (.node (.node .nil
      k!"ECUC-MULTIPLICITY-CONFIGURATION-CLASS" ()
      .nil)
     k!"END-TO-END-TRANSFORMATION-DESCRIPTION" ()
     .nil))
   k!"ASYNCHRONOUS-SERVER-CALL-RETURNS-EVENT" ()
   (.node (.node (.node .nil
      k!"DIAGNOSTIC-COMMUNICATION-MANAGER-NEEDS" ()
      .nil)
     k!"FUNCTION-INHIBITION-AVAILABILITY-NEEDS" ()
     .nil)
    k!"POSITIVE-INTEGER-VALUE-VARIATION-POINT" ()
    (.node .nil
     k!"ROLE-BASED-BSW-MODULE-ENTRY-ASSIGNMENT" ()
     .nil))))
 k!"SIGNAL-SERVICE-TRANSLATION-EVENT-PROPS" ()
 (.node (.node (.node (.node (.node .nil
      k!"COMPLEX-DEVICE-DRIVER-SW-COMPONENT-TYPE" ()
      .nil)
     k!"P-MODE-GROUP-IN-ATOMIC-SWC-INSTANCE-REF" ()
     .nil)
    k!"R-MODE-GROUP-IN-ATOMIC-SWC-INSTANCE-REF" ()
    (.node (.node .nil
      k!"SENDER-RECEIVER-TO-SIGNAL-GROUP-MAPPING" ()
      .nil)
     k!"UNLIMITED-INTEGER-VALUE-VARIATION-POINT" ()
     .nil))
   k!"COMPOSITE-RULE-BASED-VALUE-SPECIFICATION" ()
   (.node (.node (.node .nil
      k!"END-TO-END-PROTECTION-VARIABLE-PROTOTYPE" ()
      .nil)
     k!"END-TO-END-TRANSFORMATION-COM-SPEC-PROPS" ()
     .nil)
    k!"END-TO-END-TRANSFORMATION-I-SIGNAL-PROPS" ()
    (.node .nil
     k!"SIGNAL-SERVICE-TRANSLATION-ELEMENT-PROPS" ()
     .nil)))
  k!"VARIABLE-AND-PARAMETER-INTERFACE-MAPPING" ()
  (.node (.node (.node (.node .nil
      k!"CAN-CONTROLLER-CONFIGURATION-REQUIREMENTS" ()
      .nil)
     k!"SECURE-COMMUNICATION-AUTHENTICATION-PROPS" ()
     .nil)
    k!"SWC-BSW-SYNCHRONIZED-MODE-GROUP-PROTOTYPE" ()
    (.node .nil
     k!"APPLICATION-RULE-BASED-VALUE-SPECIFICATION" ()
     .nil))
   k!"BSW-ASYNCHRONOUS-SERVER-CALL-RETURNS-EVENT" ()
   (.node (.node (.node .nil
      k!"USER-DEFINED-TRANSFORMATION-COM-SPEC-PROPS" ()
      .nil)
     k!"DO-IP-ROUTING-ACTIVATION-CONFIRMATION-NEEDS" ()
     .nil)
    k!"DATA-PROTOTYPE-IN-CLIENT-SERVER-INTERFACE-REF" ()
    (.node .nil
     k!"DO-IP-ROUTING-ACTIVATION-AUTHENTICATION-NEEDS" ()
     .nil)))))

def wholeTags27 : Bst (Unit) :=
 .node wholeTags25 k!"DATA-PROTOTYPE-TRANSFORMATION-PROPS" () wholeTags26

def wholeTags28 : Bst (Unit) :=
 .node wholeTags24 k!"SENDER-REC-RECORD-TYPE-MAPPING" () wholeTags27

def wholeTags29 : Bst (Unit) :=
 .node wholeTags21 k!"OBD-CONTROL-SERVICE-NEEDS" () wholeTags28

def wholeTags30 : Bst (Unit) :=
 .node wholeTags14 k!"SO-AD-ROUTING-GROUP" () wholeTags29

/-- The tags of the elements of which objects are made and nothing else is read. -/
def wholeTags : Bst (Unit) := wholeTags30


end Verif.Gen
