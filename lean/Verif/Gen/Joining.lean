import Verif.Model.Bst
-- generated by tools/gen_joining.py; do not edit
namespace Verif.Gen
open Verif

def joiningTags00 : Bst (Unit) :=
 (.node (.node (.node (.node (.node (.node .nil
      k!"P" ()
      .nil)
     k!"SD" ()
     (.node .nil
      k!"L-1" ()
      .nil))
    k!"L-2" ()
    (.node (.node .nil
      k!"L-4" ()
      .nil)
     k!"L-5" ()
     (.node .nil
      k!"SDF" ()
      .nil)))
   k!"CODE" ()
   (.node (.node (.node .nil
      k!"ITEM" ()
      .nil)
     k!"L-10" ()
     (.node .nil
      k!"LIST" ()
      .nil))
    k!"UNIT" ()
    (.node (.node .nil
      k!"N-PDU" ()
      .nil)
     k!"FIGURE" ()
     .nil)))
  k!"LINKER" ()
  (.node (.node (.node (.node .nil
      k!"NM-ECU" ()
      .nil)
     k!"NM-PDU" ()
     (.node .nil
      k!"SYSTEM" ()
      .nil))
    k!"CHAPTER" ()
    (.node (.node .nil
      k!"GATEWAY" ()
      .nil)
     k!"HW-TYPE" ()
     .nil))
   k!"KEYWORD" ()
   (.node (.node (.node .nil
      k!"TOPIC-1" ()
      .nil)
     k!"COMPILER" ()
     (.node .nil
      k!"DEF-ITEM" ()
      .nil))
    k!"FLAT-MAP" ()
    (.node (.node .nil
      k!"I-SIGNAL" ()
      .nil)
     k!"MC-GROUP" ()
     .nil))))
 k!"CAN-FRAME" ()
 (.node (.node (.node (.node (.node .nil
      k!"DCM-I-PDU" ()
      .nil)
     k!"L-GRAPHIC" ()
     (.node .nil
      k!"MODE-IREF" ()
      .nil))
    k!"NM-CONFIG" ()
    (.node (.node .nil
      k!"ANNOTATION" ()
      .nil)
     k!"AR-PACKAGE" ()
     .nil))
   k!"CAN-TP-ECU" ()
   (.node (.node (.node .nil
      k!"COLLECTION" ()
      .nil)
     k!"ECUC-QUERY" ()
     (.node .nil
      k!"FRAME-PORT" ()
      .nil))
    k!"HW-ELEMENT" ()
    (.node (.node .nil
      k!"I-PDU-PORT" ()
      .nil)
     k!"INIT-EVENT" ()
     .nil)))
  k!"LIN-MASTER" ()
  (.node (.node (.node (.node .nil
      k!"PORT-GROUP" ()
      .nil)
     k!"SWC-TIMING" ()
     (.node .nil
      k!"UDP-NM-ECU" ()
      .nil))
    k!"WAIT-POINT" ()
    (.node (.node .nil
      k!"CAN-CLUSTER" ()
      .nil)
     k!"CAN-NM-NODE" ()
     .nil))
   k!"CAN-TP-NODE" ()
   (.node (.node (.node .nil
      k!"COMPU-SCALE" ()
      .nil)
     k!"DATA-CONSTR" ()
     (.node .nil
      k!"ECU-MAPPING" ()
      .nil))
    k!"HW-CATEGORY" ()
    (.node (.node .nil
      k!"KEYWORD-SET" ()
      .nil)
     k!"LIN-CLUSTER" ()
     .nil)))))

def joiningTags01 : Bst (Unit) :=
 (.node (.node (.node (.node (.node (.node .nil
      k!"MC-FUNCTION" ()
      .nil)
     k!"UDP-NM-NODE" ()
     (.node .nil
      k!"ACCESS-COUNT" ()
      .nil))
    k!"COMPU-METHOD" ()
    (.node (.node .nil
      k!"DOC-REVISION" ()
      .nil)
     k!"HW-PIN-GROUP" ()
     (.node .nil
      k!"LABELED-ITEM" ()
      .nil)))
   k!"MODIFICATION" ()
   (.node (.node (.node .nil
      k!"SCALE-CONSTR" ()
      .nil)
     k!"SW-BASE-TYPE" ()
     (.node .nil
      k!"TIMING-EVENT" ()
      .nil))
    k!"CAN-TP-CONFIG" ()
    (.node (.node .nil
      k!"COUPLING-PORT" ()
      .nil)
     k!"DATA-TYPE-MAP" ()
     .nil)))
  k!"DOCUMENTATION" ()
  (.node (.node (.node (.node .nil
      k!"EVENT-HANDLER" ()
      .nil)
     k!"FLEXRAY-FRAME" ()
     (.node .nil
      k!"I-PDU-MAPPING" ()
      .nil))
    k!"I-SIGNAL-PORT" ()
    (.node (.node .nil
      k!"IDS-MGR-NEEDS" ()
      .nil)
     k!"LIN-TP-CONFIG" ()
     .nil))
   k!"MSR-QUERY-ARG" ()
   (.node (.node (.node .nil
      k!"RECEIVER-IREF" ()
      .nil)
     k!"RPT-COMPONENT" ()
     (.node .nil
      k!"RUNTIME-ERROR" ()
      .nil))
    k!"SECURED-I-PDU" ()
    (.node (.node .nil
      k!"SYSTEM-SIGNAL" ()
      .nil)
     k!"CAN-NM-CLUSTER" ()
     .nil))))
 k!"CAN-TP-ADDRESS" ()
 (.node (.node (.node (.node (.node .nil
      k!"CAN-TP-CHANNEL" ()
      .nil)
     k!"COMPONENT-IREF" ()
     (.node .nil
      k!"DLT-USER-NEEDS" ()
      .nil))
    k!"ETHERNET-FRAME" ()
    (.node (.node .nil
      k!"EXCLUSIVE-AREA" ()
      .nil)
     k!"I-SIGNAL-GROUP" ()
     .nil))
   k!"I-SIGNAL-I-PDU" ()
   (.node (.node (.node .nil
      k!"J-1939-NM-NODE" ()
      .nil)
     k!"MEMORY-SECTION" ()
     (.node .nil
      k!"PDU-TRIGGERING" ()
      .nil))
    k!"REFERENCE-BASE" ()
    (.node (.node .nil
      k!"RTE-EVENT-IREF" ()
      .nil)
     k!"RULE-ARGUMENTS" ()
     .nil)))
  k!"SOCKET-ADDRESS" ()
  (.node (.node (.node (.node .nil
      k!"SW-ADDR-METHOD" ()
      .nil)
     k!"SW-CALPRM-AXIS" ()
     (.node .nil
      k!"SW-SERVICE-ARG" ()
      .nil))
    k!"SW-SYSTEMCONST" ()
    (.node (.node .nil
      k!"SYSTEM-MAPPING" ()
      .nil)
     k!"UDP-NM-CLUSTER" ()
     .nil))
   k!"CLIENT-COM-SPEC" ()
   (.node (.node (.node .nil
      k!"DO-IP-TP-CONFIG" ()
      .nil)
     k!"ECUC-MODULE-DEF" ()
     (.node .nil
      k!"FLEXRAY-CLUSTER" ()
      .nil))
    k!"LIFE-CYCLE-INFO" ()
    (.node (.node .nil
      k!"MODE-TRANSITION" ()
      .nil)
     k!"PORT-API-OPTION" ()
     .nil)))))

def joiningTags02 : Bst (Unit) :=
 .node joiningTags00 k!"LIN-TP-NODE" () joiningTags01

def joiningTags03 : Bst (Unit) :=
 (.node (.node (.node (.node (.node (.node .nil
      k!"SERVER-COM-SPEC" ()
      .nil)
     k!"SWC-BSW-MAPPING" ()
     (.node .nil
      k!"TRANSIENT-FAULT" ()
      .nil))
    k!"VARIABLE-ACCESS" ()
    (.node (.node .nil
      k!"VLAN-MEMBERSHIP" ()
      .nil)
     k!"ACCESS-COUNT-SET" ()
     (.node .nil
      k!"BACKGROUND-EVENT" ()
      .nil)))
   k!"BSW-MODULE-ENTRY" ()
   (.node (.node (.node .nil
      k!"BSW-TIMING-EVENT" ()
      .nil)
     k!"DATA-CONSTR-RULE" ()
     (.node .nil
      k!"ETHERNET-CLUSTER" ()
      .nil))
    k!"HW-ATTRIBUTE-DEF" ()
    (.node (.node .nil
      k!"I-SIGNAL-MAPPING" ()
      .nil)
     k!"INNER-GROUP-IREF" ()
     .nil)))
  k!"MC-DATA-INSTANCE" ()
  (.node (.node (.node (.node .nil
      k!"MODE-DECLARATION" ()
      .nil)
     k!"NETWORK-ENDPOINT" ()
     (.node .nil
      k!"P-PORT-PROTOTYPE" ()
      .nil))
    k!"PARAMETER-ACCESS" ()
    (.node (.node .nil
      k!"R-PORT-PROTOTYPE" ()
      .nil)
     k!"SW-RECORD-LAYOUT" ()
     .nil))
   k!"USER-DEFINED-PDU" ()
   (.node (.node (.node .nil
      k!"APPLICATION-ENTRY" ()
      .nil)
     k!"APPLICATION-ERROR" ()
     (.node .nil
      k!"BSW-CALLED-ENTITY" ()
      .nil))
    k!"CAN-TP-CONNECTION" ()
    (.node (.node .nil
      k!"CONSISTENCY-NEEDS" ()
      .nil)
     k!"DEVELOPMENT-ERROR" ()
     .nil))))
 k!"HW-PIN-CONNECTION" ()
 (.node (.node (.node (.node (.node .nil
      k!"LIN-TP-CONNECTION" ()
      .nil)
     k!"MODE-ACCESS-POINT" ()
     (.node .nil
      k!"MODE-SWITCH-POINT" ()
      .nil))
    k!"MULTIPLEXED-I-PDU" ()
    (.node (.node .nil
      k!"NV-DATA-INTERFACE" ()
      .nil)
     k!"PR-PORT-PROTOTYPE" ()
     .nil))
   k!"SOCKET-CONNECTION" ()
   (.node (.node (.node .nil
      k!"TRIGGER-INTERFACE" ()
      .nil)
     k!"BSW-IMPLEMENTATION" ()
     (.node .nil
      k!"COM-MGR-USER-NEEDS" ()
      .nil))
    k!"CONSTANT-REFERENCE" ()
    (.node (.node .nil
      k!"COUPLING-PORT-FIFO" ()
      .nil)
     k!"DISABLED-MODE-IREF" ()
     .nil)))
  k!"ECUC-REFERENCE-DEF" ()
  (.node (.node (.node (.node .nil
      k!"ERROR-TRACER-NEEDS" ()
      .nil)
     k!"FLEXRAY-FIFO-RANGE" ()
     (.node .nil
      k!"HW-ATTRIBUTE-VALUE" ()
      .nil))
    k!"LIN-SCHEDULE-TABLE" ()
    (.node (.node .nil
      k!"PHYSICAL-DIMENSION" ()
      .nil)
     k!"PREDEFINED-VARIANT" ()
     .nil))
   k!"SWC-IMPLEMENTATION" ()
   (.node (.node (.node .nil
      k!"SWC-TO-ECU-MAPPING" ()
      .nil)
     k!"TEXT-TABLE-MAPPING" ()
     (.node .nil
      k!"USER-DEFINED-I-PDU" ()
      .nil))
    k!"BSW-VARIABLE-ACCESS" ()
    (.node (.node .nil
      k!"DATA-RECEIVED-EVENT" ()
      .nil)
     k!"DATA-TRANSFORMATION" ()
     .nil)))))

def joiningTags04 : Bst (Unit) :=
 (.node (.node (.node (.node (.node (.node .nil
      k!"DO-IP-LOGIC-ADDRESS" ()
      .nil)
     k!"DO-IP-TP-CONNECTION" ()
     (.node .nil
      k!"GENERAL-PURPOSE-PDU" ()
      .nil))
    k!"I-SIGNAL-TRIGGERING" ()
    (.node (.node .nil
      k!"INVALIDATION-POLICY" ()
      .nil)
     k!"IPV-6-CONFIGURATION" ()
     .nil))
   k!"LIFE-CYCLE-INFO-SET" ()
   (.node (.node (.node .nil
      k!"MAC-MULTICAST-GROUP" ()
      .nil)
     k!"MEASURED-HEAP-USAGE" ()
     (.node .nil
      k!"NV-BLOCK-DESCRIPTOR" ()
      .nil))
    k!"NV-PROVIDE-COM-SPEC" ()
    (.node (.node .nil
      k!"NV-REQUIRE-COM-SPEC" ()
      .nil)
     k!"PARAMETER-INTERFACE" ()
     .nil)))
  k!"PER-INSTANCE-MEMORY" ()
  (.node (.node (.node (.node .nil
      k!"SECTION-NAME-PREFIX" ()
      .nil)
     k!"SHORT-NAME-FRAGMENT" ()
     (.node .nil
      k!"SO-AD-ROUTING-GROUP" ()
      .nil))
    k!"SUB-ELEMENT-MAPPING" ()
    (.node (.node .nil
      k!"SWC-TO-IMPL-MAPPING" ()
      .nil)
     k!"SYSTEM-SIGNAL-GROUP" ()
     .nil))
   k!"BSW-BACKGROUND-EVENT" ()
   (.node (.node (.node .nil
      k!"BSW-INTERRUPT-ENTITY" ()
      .nil)
     k!"CAN-FRAME-TRIGGERING" ()
     (.node .nil
      k!"CAN-PHYSICAL-CHANNEL" ()
      .nil))
    k!"CONSUMED-EVENT-GROUP" ()
    (.node (.node .nil
      k!"CRYPTO-SERVICE-NEEDS" ()
      .nil)
     k!"DATA-PROTOTYPE-GROUP" ()
     .nil))))
 k!"ECUC-CONTAINER-VALUE" ()
 (.node (.node (.node (.node (.node .nil
      k!"ECUC-FLOAT-PARAM-DEF" ()
      .nil)
     k!"ECUC-REFERENCE-VALUE" ()
     (.node .nil
      k!"HW-ELEMENT-CONNECTOR" ()
      .nil))
    k!"I-SIGNAL-I-PDU-GROUP" ()
    (.node (.node .nil
      k!"LIN-FRAME-TRIGGERING" ()
      .nil)
     k!"LIN-PHYSICAL-CHANNEL" ()
     .nil))
   k!"MEASURED-STACK-USAGE" ()
   (.node (.node (.node .nil
      k!"MODE-PORT-ANNOTATION" ()
      .nil)
     k!"PDU-TO-FRAME-MAPPING" ()
     (.node .nil
      k!"RULE-BASED-AXIS-CONT" ()
      .nil))
    k!"RUNNABLE-ENTITY-IREF" ()
    (.node (.node .nil
      k!"SW-SYSTEMCONST-VALUE" ()
      .nil)
     k!"VARIABLE-ACCESS-IREF" ()
     .nil)))
  k!"ASSEMBLY-SW-CONNECTOR" ()
  (.node (.node (.node (.node .nil
      k!"BSW-INTERNAL-BEHAVIOR" ()
      .nil)
     k!"BSW-MODE-SWITCH-EVENT" ()
     (.node .nil
      k!"BSW-MODULE-DEPENDENCY" ()
      .nil))
    k!"DATA-TYPE-MAPPING-SET" ()
    (.node (.node .nil
      k!"DIAGNOSTIC-CONNECTION" ()
      .nil)
     k!"DISABLED-IN-MODE-IREF" ()
     .nil))
   k!"DOCUMENTATION-CONTEXT" ()
   (.node (.node (.node .nil
      k!"ECUC-STRING-PARAM-DEF" ()
      .nil)
     k!"ECUC-VALUE-COLLECTION" ()
     (.node .nil
      k!"END-TO-END-PROTECTION" ()
      .nil))
    k!"GENERAL-PURPOSE-I-PDU" ()
    (.node (.node .nil
      k!"MODE-REQUEST-TYPE-MAP" ()
      .nil)
     k!"MODE-SWITCH-INTERFACE" ()
     .nil)))))

def joiningTags05 : Bst (Unit) :=
 .node joiningTags03 k!"DESTINATION-URI-REF" () joiningTags04

def joiningTags06 : Bst (Unit) :=
 .node joiningTags02 k!"RUNNABLE-ENTITY" () joiningTags05

def joiningTags07 : Bst (Unit) :=
 (.node (.node (.node (.node (.node (.node .nil
      k!"OBD-PID-SERVICE-NEEDS" ()
      .nil)
     k!"RPT-EXECUTABLE-ENTITY" ()
     (.node .nil
      k!"RPT-EXECUTION-CONTEXT" ()
      .nil))
    k!"RUNNABLE-ENTITY-GROUP" ()
    (.node (.node .nil
      k!"SW-GENERIC-AXIS-PARAM" ()
      .nil)
     k!"SWC-INTERNAL-BEHAVIOR" ()
     (.node .nil
      k!"SWC-MODE-SWITCH-EVENT" ()
      .nil)))
   k!"VARIATION-POINT-PROXY" ()
   (.node (.node (.node .nil
      k!"WORST-CASE-HEAP-USAGE" ()
      .nil)
     k!"BSW-MODE-SENDER-POLICY" ()
     (.node .nil
      k!"BSW-MODULE-DESCRIPTION" ()
      .nil))
    k!"BSW-SCHEDULABLE-ENTITY" ()
    (.node (.node .nil
      k!"BSW-SERVICE-DEPENDENCY" ()
      .nil)
     k!"CONSTANT-SPECIFICATION" ()
     .nil)))
  k!"DATA-PROTOTYPE-MAPPING" ()
  (.node (.node (.node (.node .nil
      k!"DEPENDENCY-ON-ARTIFACT" ()
      .nil)
     k!"DIAGNOSTIC-EVENT-NEEDS" ()
     (.node .nil
      k!"DIAGNOSTIC-VALUE-NEEDS" ()
      .nil))
    k!"ECUC-BOOLEAN-PARAM-DEF" ()
    (.node (.node .nil
      k!"ECUC-FUNCTION-NAME-DEF" ()
      .nil)
     k!"ECUC-INTEGER-PARAM-DEF" ()
     .nil))
   k!"INDICATOR-STATUS-NEEDS" ()
   (.node (.node (.node .nil
      k!"MODE-DECLARATION-GROUP" ()
      .nil)
     k!"MODE-INTERFACE-MAPPING" ()
     (.node .nil
      k!"OBD-INFO-SERVICE-NEEDS" ()
      .nil))
    k!"QUEUED-SENDER-COM-SPEC" ()
    (.node (.node .nil
      k!"SW-COMPONENT-PROTOTYPE" ()
      .nil)
     k!"SWC-SERVICE-DEPENDENCY" ()
     .nil))))
 k!"WORST-CASE-STACK-USAGE" ()
 (.node (.node (.node (.node (.node .nil
      k!"ANALYZED-EXECUTION-TIME" ()
      .nil)
     k!"ARGUMENT-DATA-PROTOTYPE" ()
     (.node .nil
      k!"BSW-DATA-RECEIVED-EVENT" ()
      .nil))
    k!"BULK-NV-DATA-DESCRIPTOR" ()
    (.node (.node .nil
      k!"CAN-NM-CLUSTER-COUPLING" ()
      .nil)
     k!"CLIENT-SERVER-INTERFACE" ()
     .nil))
   k!"CLIENT-SERVER-OPERATION" ()
   (.node (.node (.node .nil
      k!"COUPLING-PORT-SCHEDULER" ()
      .nil)
     k!"DATA-TRANSFORMATION-SET" ()
     (.node .nil
      k!"DELEGATION-SW-CONNECTOR" ()
      .nil))
    k!"HW-PIN-GROUP-CONNECTION" ()
    (.node (.node .nil
      k!"LIN-UNCONDITIONAL-FRAME" ()
      .nil)
     k!"MEASURED-EXECUTION-TIME" ()
     .nil)))
  k!"MEMORY-SECTION-LOCATION" ()
  (.node (.node (.node (.node .nil
      k!"MODE-SWITCHED-ACK-EVENT" ()
      .nil)
     k!"NV-DATA-PORT-ANNOTATION" ()
     (.node .nil
      k!"OBD-RATIO-SERVICE-NEEDS" ()
      .nil))
    k!"OPERATION-INVOKED-EVENT" ()
    (.node (.node .nil
      k!"POSSIBLE-ERROR-REACTION" ()
      .nil)
     k!"TRIGGER-PORT-ANNOTATION" ()
     .nil))
   k!"UDP-NM-CLUSTER-COUPLING" ()
   (.node (.node (.node .nil
      k!"CLIENT-SERVER-ANNOTATION" ()
      .nil)
     k!"DIAGNOSTIC-ROUTINE-NEEDS" ()
     (.node .nil
      k!"DIAGNOSTIC-SERVICE-TABLE" ()
      .nil))
    k!"DYNAMIC-PART-ALTERNATIVE" ()
    (.node (.node .nil
      k!"ECU-STATE-MGR-USER-NEEDS" ()
      .nil)
     k!"ECUC-DESTINATION-URI-DEF" ()
     .nil)))))

def joiningTags08 : Bst (Unit) :=
 (.node (.node (.node (.node (.node (.node .nil
      k!"FLAT-INSTANCE-DESCRIPTOR" ()
      .nil)
     k!"FLEXRAY-FRAME-TRIGGERING" ()
     (.node .nil
      k!"FLEXRAY-PHYSICAL-CHANNEL" ()
      .nil))
    k!"HW-ATTRIBUTE-LITERAL-DEF" ()
    (.node (.node .nil
      k!"IMPLEMENTATION-DATA-TYPE" ()
      .nil)
     k!"MODE-DECLARATION-MAPPING" ()
     .nil))
   k!"PARAMETER-DATA-PROTOTYPE" ()
   (.node (.node (.node .nil
      k!"PORT-PROTOTYPE-BLUEPRINT" ()
      .nil)
     k!"QUEUED-RECEIVER-COM-SPEC" ()
     (.node .nil
      k!"RUNNABLE-ENTITY-ARGUMENT" ()
      .nil))
    k!"SIMULATED-EXECUTION-TIME" ()
    (.node (.node .nil
      k!"SOCKET-CONNECTION-BUNDLE" ()
      .nil)
     k!"SWC-BSW-RUNNABLE-MAPPING" ()
     .nil)))
  k!"TEXT-VALUE-SPECIFICATION" ()
  (.node (.node (.node (.node .nil
      k!"ARRAY-VALUE-SPECIFICATION" ()
      .nil)
     k!"CONSUMED-SERVICE-INSTANCE" ()
     (.node .nil
      k!"DATA-PROTOTYPE-GROUP-IREF" ()
      .nil))
    k!"DATA-SEND-COMPLETED-EVENT" ()
    (.node (.node .nil
      k!"ECUC-CHOICE-CONTAINER-DEF" ()
      .nil)
     k!"ECUC-CHOICE-REFERENCE-DEF" ()
     .nil))
   k!"ECUC-VALIDATION-CONDITION" ()
   (.node (.node (.node .nil
      k!"END-TO-END-PROTECTION-SET" ()
      .nil)
     k!"EOC-EXECUTABLE-ENTITY-REF" ()
     (.node .nil
      k!"ETHERNET-PHYSICAL-CHANNEL" ()
      .nil))
    k!"EXTERNAL-TRIGGERING-POINT" ()
    (.node (.node .nil
      k!"I-SIGNAL-TO-I-PDU-MAPPING" ()
      .nil)
     k!"IMPLICIT-DATA-ACCESS-IREF" ()
     .nil))))
 k!"INTERNAL-TRIGGERING-POINT" ()
 (.node (.node (.node (.node (.node .nil
      k!"NONQUEUED-SENDER-COM-SPEC" ()
      .nil)
     k!"OBD-CONTROL-SERVICE-NEEDS" ()
     (.node .nil
      k!"OBD-MONITOR-SERVICE-NEEDS" ()
      .nil))
    k!"PARAMETER-PORT-ANNOTATION" ()
    (.node (.node .nil
      k!"PASS-THROUGH-SW-CONNECTOR" ()
      .nil)
     k!"PROVIDED-SERVICE-INSTANCE" ()
     .nil))
   k!"ROUGH-ESTIMATE-HEAP-USAGE" ()
   (.node (.node (.node .nil
      k!"SENDER-RECEIVER-INTERFACE" ()
      .nil)
     k!"SERVICE-SW-COMPONENT-TYPE" ()
     (.node .nil
      k!"SWC-EXCLUSIVE-AREA-POLICY" ()
      .nil))
    k!"TRANSFORMATION-TECHNOLOGY" ()
    (.node (.node .nil
      k!"APPLICATION-RECORD-ELEMENT" ()
      .nil)
     k!"AUTOSAR-ENGINEERING-OBJECT" ()
     .nil)))
  k!"ECUC-DEFINITION-COLLECTION" ()
  (.node (.node (.node (.node .nil
      k!"ECUC-ENUMERATION-PARAM-DEF" ()
      .nil)
     k!"ECUC-NUMERICAL-PARAM-VALUE" ()
     (.node .nil
      k!"EXECUTION-ORDER-CONSTRAINT" ()
      .nil))
    k!"FLEXRAY-FIFO-CONFIGURATION" ()
    (.node (.node .nil
      k!"MC-PARAMETER-ELEMENT-GROUP" ()
      .nil)
     k!"NV-BLOCK-SW-COMPONENT-TYPE" ()
     .nil))
   k!"PARAMETER-PROVIDE-COM-SPEC" ()
   (.node (.node (.node .nil
      k!"PARAMETER-REQUIRE-COM-SPEC" ()
      .nil)
     k!"PORT-INTERFACE-MAPPING-SET" ()
     (.node .nil
      k!"RECORD-VALUE-SPECIFICATION" ()
      .nil))
    k!"ROLE-BASED-DATA-ASSIGNMENT" ()
    (.node (.node .nil
      k!"ROLE-BASED-PORT-ASSIGNMENT" ()
      .nil)
     k!"ROUGH-ESTIMATE-STACK-USAGE" ()
     .nil)))))

def joiningTags09 : Bst (Unit) :=
 .node joiningTags07 k!"ECUC-TEXTUAL-PARAM-VALUE" () joiningTags08

def joiningTags10 : Bst (Unit) :=
 (.node (.node (.node (.node (.node (.node .nil
      k!"SENDER-RECEIVER-ANNOTATION" ()
      .nil)
     k!"APPLICATION-ARRAY-DATA-TYPE" ()
     (.node .nil
      k!"BSW-MODE-SWITCHED-ACK-EVENT" ()
      .nil))
    k!"BSW-OPERATION-INVOKED-EVENT" ()
    (.node (.node .nil
      k!"CAN-COMMUNICATION-CONNECTOR" ()
      .nil)
     k!"DIAGNOSTIC-EVENT-INFO-NEEDS" ()
     (.node .nil
      k!"DIAGNOSTIC-IO-CONTROL-NEEDS" ()
      .nil)))
   k!"ECUC-INSTANCE-REFERENCE-DEF" ()
   (.node (.node (.node .nil
      k!"LIN-COMMUNICATION-CONNECTOR" ()
      .nil)
     k!"MODE-SWITCH-SENDER-COM-SPEC" ()
     (.node .nil
      k!"NONQUEUED-RECEIVER-COM-SPEC" ()
      .nil))
    k!"OBD-RATIO-DENOMINATOR-NEEDS" ()
    (.node (.node .nil
      k!"PORT-DEFINED-ARGUMENT-VALUE" ()
      .nil)
     k!"RPT-EXECUTABLE-ENTITY-EVENT" ()
     .nil)))
  k!"SW-SYSTEMCONSTANT-VALUE-SET" ()
  (.node (.node (.node (.node .nil
      k!"TRANSMISSION-MODE-CONDITION" ()
      .nil)
     k!"APPLICATION-RECORD-DATA-TYPE" ()
     (.node .nil
      k!"BSW-MODE-MANAGER-ERROR-EVENT" ()
      .nil))
    k!"CAN-COMMUNICATION-CONTROLLER" ()
    (.node (.node .nil
      k!"ECUC-DESTINATION-URI-DEF-SET" ()
      .nil)
     k!"ECUC-ENUMERATION-LITERAL-DEF" ()
     .nil))
   k!"EXCLUSIVE-AREA-NESTING-ORDER" ()
   (.node (.node (.node .nil
      k!"INSTANTIATION-DATA-DEF-PROPS" ()
      .nil)
     k!"MODE-DECLARATION-MAPPING-SET" ()
     (.node .nil
      k!"POST-BUILD-VARIANT-CONDITION" ()
      .nil))
    k!"POST-BUILD-VARIANT-CRITERION" ()
    (.node (.node .nil
      k!"SWC-BSW-SYNCHRONIZED-TRIGGER" ()
      .nil)
     k!"APPLICATION-SW-COMPONENT-TYPE" ()
     .nil))))
 k!"BSW-INTERNAL-TRIGGERING-POINT" ()
 (.node (.node (.node (.node (.node .nil
      k!"COMPOSITION-SW-COMPONENT-TYPE" ()
      .nil)
     k!"ECUC-INSTANCE-REFERENCE-VALUE" ()
     (.node .nil
      k!"ECUC-PARAM-CONF-CONTAINER-DEF" ()
      .nil))
    k!"MODE-SWITCH-RECEIVER-COM-SPEC" ()
    (.node (.node .nil
      k!"NUMERICAL-VALUE-SPECIFICATION" ()
      .nil)
     k!"ROLE-BASED-MC-DATA-ASSIGNMENT" ()
     .nil))
   k!"SYNCHRONOUS-SERVER-CALL-POINT" ()
   (.node (.node (.node .nil
      k!"ASYNCHRONOUS-SERVER-CALL-POINT" ()
      .nil)
     k!"BSW-MODULE-CLIENT-SERVER-ENTRY" ()
     (.node .nil
      k!"DIAG-EVENT-DEBOUNCE-TIME-BASED" ()
      .nil))
    k!"ECUC-VALUE-CONFIGURATION-CLASS" ()
    (.node (.node .nil
      k!"ETHERNET-PRIORITY-REGENERATION" ()
      .nil)
     k!"MC-SW-EMULATION-METHOD-SUPPORT" ()
     .nil)))
  k!"SECURE-COMMUNICATION-PROPS-SET" ()
  (.node (.node (.node (.node .nil
      k!"APPLICATION-PRIMITIVE-DATA-TYPE" ()
      .nil)
     k!"APPLICATION-VALUE-SPECIFICATION" ()
     (.node .nil
      k!"CLIENT-SERVER-INTERFACE-MAPPING" ()
      .nil))
    k!"CLIENT-SERVER-OPERATION-MAPPING" ()
    (.node (.node .nil
      k!"ECUC-MULTILINE-STRING-PARAM-DEF" ()
      .nil)
     k!"FLEXRAY-COMMUNICATION-CONNECTOR" ()
     .nil))
   k!"INTERNAL-TRIGGER-OCCURRED-EVENT" ()
   (.node (.node (.node .nil
      k!"ROLE-BASED-DATA-TYPE-ASSIGNMENT" ()
      .nil)
     k!"SERVICE-PROXY-SW-COMPONENT-TYPE" ()
     (.node .nil
      k!"BSW-QUEUED-DATA-RECEPTION-POLICY" ()
      .nil))
    k!"COMPOSITE-NETWORK-REPRESENTATION" ()
    (.node (.node .nil
      k!"DIAGNOSTIC-OPERATION-CYCLE-NEEDS" ()
      .nil)
     k!"ECUC-MODULE-CONFIGURATION-VALUES" ()
     .nil)))))

def joiningTags11 : Bst (Unit) :=
 (.node (.node (.node (.node (.node (.node .nil
      k!"ETHERNET-COMMUNICATION-CONNECTOR" ()
      .nil)
     k!"FLEXRAY-COMMUNICATION-CONTROLLER" ()
     (.node .nil
      k!"IMPLEMENTATION-DATA-TYPE-ELEMENT" ()
      .nil))
    k!"INSTANTIATION-TIMING-EVENT-PROPS" ()
    (.node (.node .nil
      k!"MODE-DECLARATION-GROUP-PROTOTYPE" ()
      .nil)
     k!"ROUGH-ESTIMATE-OF-EXECUTION-TIME" ()
     .nil))
   k!"SIGNAL-SERVICE-TRANSLATION-PROPS" ()
   (.node (.node (.node .nil
      k!"BSW-SYNCHRONOUS-SERVER-CALL-POINT" ()
      .nil)
     k!"DIAG-EVENT-DEBOUNCE-COUNTER-BASED" ()
     (.node .nil
      k!"DIAGNOSTIC-ENABLE-CONDITION-NEEDS" ()
      .nil))
    k!"E-2-E-PROFILE-COMPATIBILITY-PROPS" ()
    (.node (.node .nil
      k!"ECU-ABSTRACTION-SW-COMPONENT-TYPE" ()
      .nil)
     k!"ETHERNET-COMMUNICATION-CONTROLLER" ()
     .nil)))
  k!"SENDER-REC-RECORD-ELEMENT-MAPPING" ()
  (.node (.node (.node (.node .nil
      k!"SENDER-RECEIVER-TO-SIGNAL-MAPPING" ()
      .nil)
     k!"SENSOR-ACTUATOR-SW-COMPONENT-TYPE" ()
     (.node .nil
      k!"SOCKET-CONNECTION-IPDU-IDENTIFIER" ()
      .nil))
    k!"BSW-ASYNCHRONOUS-SERVER-CALL-POINT" ()
    (.node (.node .nil
      k!"DIAGNOSTIC-STORAGE-CONDITION-NEEDS" ()
      .nil)
     k!"BSW-EXTERNAL-TRIGGER-OCCURRED-EVENT" ()
     .nil))
   k!"BSW-INTERNAL-TRIGGER-OCCURRED-EVENT" ()
   (.node (.node (.node .nil
      k!"DATA-PROTOTYPE-TRANSFORMATION-PROPS" ()
      .nil)
     k!"EXECUTABLE-ENTITY-ACTIVATION-REASON" ()
     (.node .nil
      k!"FLEXRAY-ABSOLUTELY-SCHEDULED-TIMING" ()
      .nil))
    k!"INCLUDED-MODE-DECLARATION-GROUP-SET" ()
    (.node (.node .nil
      k!"IO-HW-ABSTRACTION-SERVER-ANNOTATION" ()
      .nil)
     k!"SECURE-ON-BOARD-COMMUNICATION-NEEDS" ()
     .nil))))
 k!"DIAG-EVENT-DEBOUNCE-MONITOR-INTERNAL" ()
 (.node (.node (.node (.node (.node .nil
      k!"DTC-STATUS-CHANGE-NOTIFICATION-NEEDS" ()
      .nil)
     k!"END-TO-END-PROTECTION-I-SIGNAL-I-PDU" ()
     (.node .nil
      k!"MODE-SWITCH-EVENT-TRIGGERED-ACTIVITY" ()
      .nil))
    k!"SECURE-COMMUNICATION-FRESHNESS-PROPS" ()
    (.node (.node .nil
      k!"SIGNAL-SERVICE-TRANSLATION-PROPS-SET" ()
      .nil)
     k!"ASYNCHRONOUS-SERVER-CALL-RESULT-POINT" ()
     .nil))
   k!"ECUC-MULTIPLICITY-CONFIGURATION-CLASS" ()
   (.node (.node (.node .nil
      k!"ASYNCHRONOUS-SERVER-CALL-RETURNS-EVENT" ()
      .nil)
     k!"DIAGNOSTIC-COMMUNICATION-MANAGER-NEEDS" ()
     (.node .nil
      k!"FUNCTION-INHIBITION-AVAILABILITY-NEEDS" ()
      .nil))
    k!"ROLE-BASED-BSW-MODULE-ENTRY-ASSIGNMENT" ()
    (.node (.node .nil
      k!"SIGNAL-SERVICE-TRANSLATION-EVENT-PROPS" ()
      .nil)
     k!"COMPLEX-DEVICE-DRIVER-SW-COMPONENT-TYPE" ()
     .nil)))
  k!"SENDER-RECEIVER-TO-SIGNAL-GROUP-MAPPING" ()
  (.node (.node (.node (.node .nil
      k!"COMPOSITE-RULE-BASED-VALUE-SPECIFICATION" ()
      .nil)
     k!"END-TO-END-PROTECTION-VARIABLE-PROTOTYPE" ()
     (.node .nil
      k!"END-TO-END-TRANSFORMATION-COM-SPEC-PROPS" ()
      .nil))
    k!"END-TO-END-TRANSFORMATION-I-SIGNAL-PROPS" ()
    (.node (.node .nil
      k!"SIGNAL-SERVICE-TRANSLATION-ELEMENT-PROPS" ()
      .nil)
     k!"VARIABLE-AND-PARAMETER-INTERFACE-MAPPING" ()
     .nil))
   k!"SECURE-COMMUNICATION-AUTHENTICATION-PROPS" ()
   (.node (.node (.node .nil
      k!"SWC-BSW-SYNCHRONIZED-MODE-GROUP-PROTOTYPE" ()
      .nil)
     k!"APPLICATION-RULE-BASED-VALUE-SPECIFICATION" ()
     (.node .nil
      k!"BSW-ASYNCHRONOUS-SERVER-CALL-RETURNS-EVENT" ()
      .nil))
    k!"USER-DEFINED-TRANSFORMATION-COM-SPEC-PROPS" ()
    (.node (.node .nil
      k!"DO-IP-ROUTING-ACTIVATION-CONFIRMATION-NEEDS" ()
      .nil)
     k!"DO-IP-ROUTING-ACTIVATION-AUTHENTICATION-NEEDS" ()
     .nil)))))

def joiningTags12 : Bst (Unit) :=
 .node joiningTags10 k!"ECUC-SYMBOLIC-NAME-REFERENCE-DEF" () joiningTags11

def joiningTags13 : Bst (Unit) :=
 .node joiningTags09 k!"RUNNABLE-ENTITY-GROUP-IREF" () joiningTags12

def joiningTags14 : Bst (Unit) :=
 .node joiningTags06 k!"NV-BLOCK-DATA-MAPPING" () joiningTags13

/-- The tags of the elements that can be added to a list of objects and do nothing else. -/
def joiningTags : Bst (Unit) := joiningTags14


end Verif.Gen
