import Verif.Model.Bst
-- generated by tools/gen_text.py; do not edit
namespace Verif.Gen
open Verif

def textTags00 : Bst (Unit) :=
 (.node (.node (.node (.node (.node (.node .nil
      k!"E" ()
      .nil)
     k!"V" ()
     (.node .nil
      k!"X" ()
      .nil))
    k!"ID" ()
    (.node (.node .nil
      k!"IE" ()
      .nil)
     k!"SD" ()
     (.node .nil
      k!"TT" ()
      .nil)))
   k!"VF" ()
   (.node (.node (.node .nil
      k!"VT" ()
      .nil)
     k!"ARG" ()
     (.node .nil
      k!"BIT" ()
      .nil))
    k!"L-1" ()
    (.node (.node .nil
      k!"L-2" ()
      .nil)
     k!"L-4" ()
     .nil)))
  k!"L-5" ()
  (.node (.node (.node (.node .nil
      k!"MAX" ()
      .nil)
     k!"MIN" ()
     (.node .nil
      k!"SDF" ()
      .nil))
    k!"TTL" ()
    (.node (.node .nil
      k!"BASE" ()
      .nil)
     k!"DATE" ()
     (.node .nil
      k!"L-10" ()
      .nil)))
   k!"MASK" ()
   (.node (.node (.node .nil
      k!"NAME" ()
      .nil)
     k!"ROLE" ()
     (.node .nil
      k!"RULE" ()
      .nil))
    k!"SDXF" ()
    (.node (.node .nil
      k!"SIZE" ()
      .nil)
     k!"TYPE" ()
     .nil))))
 k!"CYCLE" ()
 (.node (.node (.node (.node (.node .nil
      k!"DELAY" ()
      .nil)
     k!"INDEX" ()
     (.node .nil
      k!"INPUT" ()
      .nil))
    k!"LIMIT" ()
    (.node (.node .nil
      k!"PWM-L" ()
      .nil)
     k!"PWM-O" ()
     (.node .nil
      k!"PWM-S" ()
      .nil)))
   k!"SCOPE" ()
   (.node (.node (.node .nil
      k!"STATE" ()
      .nil)
     k!"USAGE" ()
     (.node .nil
      k!"VALUE" ()
      .nil))
    k!"DOMAIN" ()
    (.node (.node .nil
      k!"KEY-ID" ()
      .nil)
     k!"LENGTH" ()
     .nil)))
  k!"OFFSET" ()
  (.node (.node (.node (.node .nil
      k!"OPTION" ()
      .nil)
     k!"ORIGIN" ()
     (.node .nil
      k!"PERIOD" ()
      .nil))
    k!"PREFIX" ()
    (.node (.node .nil
      k!"ST-MIN" ()
      .nil)
     k!"SYMBOL" ()
     (.node .nil
      k!"TAG-ID" ()
      .nil)))
   k!"VENDOR" ()
   (.node (.node (.node .nil
      k!"ADDRESS" ()
      .nil)
     k!"COMMENT" ()
     (.node .nil
      k!"DATA-ID" ()
      .nil))
    k!"ECU-REF" ()
    (.node (.node .nil
      k!"OPTIONS" ()
      .nil)
     k!"P-2-MAX" ()
     .nil)))))

def textTags01 : Bst (Unit) :=
 (.node (.node (.node (.node (.node (.node .nil
      k!"SDX-REF" ()
      .nil)
     k!"SLOT-ID" ()
     (.node .nil
      k!"TA-TYPE" ()
      .nil))
    k!"TIMEOUT" ()
    (.node (.node .nil
      k!"TRIGGER" ()
      .nil)
     k!"VERSION" ()
     (.node .nil
      k!"BASE-REF" ()
      .nil)))
   k!"BAUDRATE" ()
   (.node (.node (.node .nil
      k!"CATEGORY" ()
      .nil)
     k!"CDD-TYPE" ()
     (.node .nil
      k!"COMPUTED" ()
      .nil))
    k!"CSE-CODE" ()
    (.node (.node .nil
      k!"DATA-REF" ()
      .nil)
     k!"DTC-KIND" ()
     .nil)))
  k!"FRAGMENT" ()
  (.node (.node (.node (.node .nil
      k!"FUNCTION" ()
      .nil)
     k!"IN-PLACE" ()
     (.node .nil
      k!"LANGUAGE" ()
      .nil))
    k!"MASS-EXP" ()
    (.node (.node .nil
      k!"MAX-DIFF" ()
      .nil)
     k!"MONOTONY" ()
     (.node .nil
      k!"PORT-REF" ()
      .nil)))
   k!"PRIORITY" ()
   (.node (.node (.node .nil
      k!"PROP-SEG" ()
      .nil)
     k!"PROTOCOL" ()
     (.node .nil
      k!"READONLY" ()
      .nil))
    k!"RUN-MODE" ()
    (.node (.node .nil
      k!"TIME-EXP" ()
      .nil)
     k!"UNIT-REF" ()
     .nil))))
 k!"VLAN-REF" ()
 (.node (.node (.node (.node (.node .nil
      k!"ABBR-NAME" ()
      .nil)
     k!"ALIGNMENT" ()
     (.node .nil
      k!"CALL-TYPE" ()
      .nil))
    k!"DIRECTION" ()
    (.node (.node .nil
      k!"ENTRY-REF" ()
      .nil)
     k!"FRAME-REF" ()
     (.node .nil
      k!"HEADER-ID" ()
      .nil)))
   k!"HOP-COUNT" ()
   (.node (.node (.node .nil
      k!"I-PDU-REF" ()
      .nil)
     k!"IS-GLOBAL" ()
     (.node .nil
      k!"ISSUED-BY" ()
      .nil))
    k!"LATEST-TX" ()
    (.node (.node .nil
      k!"MAX-PWM-L" ()
      .nil)
     k!"MAX-PWM-O" ()
     .nil)))
  k!"MAX-PWM-S" ()
  (.node (.node (.node (.node .nil
      k!"MAX-VALUE" ()
      .nil)
     k!"MIN-PWM-L" ()
     (.node .nil
      k!"MIN-PWM-O" ()
      .nil))
    k!"MIN-PWM-S" ()
    (.node (.node .nil
      k!"MIN-VALUE" ()
      .nil)
     k!"MODULE-ID" ()
     (.node .nil
      k!"RANGE-MAX" ()
      .nil)))
   k!"RANGE-MIN" ()
   (.node (.node (.node .nil
      k!"STEP-SIZE" ()
      .nil)
     k!"TIME-BASE" ()
     (.node .nil
      k!"TIME-SEG1" ()
      .nil))
    k!"TIME-SEG2" ()
    (.node (.node .nil
      k!"TRACE-REF" ()
      .nil)
     k!"TYPE-TREF" ()
     .nil)))))

def textTags02 : Bst (Unit) :=
 .node textTags00 k!"PDU-REF" () textTags01

def textTags03 : Bst (Unit) :=
 (.node (.node (.node (.node (.node (.node .nil
      k!"VENDOR-ID" ()
      .nil)
     k!"WITH-AUTO" ()
     (.node .nil
      k!"ACTIVATION" ()
      .nil))
    k!"ARRAY-SIZE" ()
    (.node (.node .nil
      k!"BASE-CYCLE" ()
      .nil)
     k!"BYTE-ORDER" ()
     (.node .nil
      k!"CHANNEL-ID" ()
      .nil)))
   k!"CRC-OFFSET" ()
   (.node (.node (.node .nil
      k!"DID-NUMBER" ()
      .nil)
     k!"ERROR-CODE" ()
     (.node .nil
      k!"EXPRESSION" ()
      .nil))
    k!"FIFO-DEPTH" ()
    (.node (.node .nil
      k!"HW-PIN-REF" ()
      .nil)
     k!"IDENTIFIER" ()
     .nil)))
  k!"IMPORTANCE" ()
  (.node (.node (.node (.node .nil
      k!"INIT-VALUE" ()
      .nil)
     k!"IS-DEFAULT" ()
     (.node .nil
      k!"IS-SERVICE" ()
      .nil))
    k!"LENGTH-EXP" ()
    (.node (.node .nil
      k!"LIMIT-KIND" ()
      .nil)
     k!"MAX-LENGTH" ()
     (.node .nil
      k!"MESSAGE-ID" ()
      .nil)))
   k!"MIN-LENGTH" ()
   (.node (.node (.node .nil
      k!"MODULE-REF" ()
      .nil)
     k!"NM-NODE-ID" ()
     (.node .nil
      k!"P-2-TIMING" ()
      .nil))
    k!"PREFIX-REF" ()
    (.node (.node .nil
      k!"PULSE-TEST" ()
      .nil)
     k!"RID-NUMBER" ()
     .nil))))
 k!"SERVICE-ID" ()
 (.node (.node (.node (.node (.node .nil
      k!"SHORT-NAME" ()
      .nil)
     k!"SIGNAL-FAN" ()
     (.node .nil
      k!"SSP-OFFSET" ()
      .nil))
    k!"SW-VERSION" ()
    (.node (.node .nil
      k!"TARGET-REF" ()
      .nil)
     k!"TIMEOUT-AR" ()
     (.node .nil
      k!"TIMEOUT-AS" ()
      .nil)))
   k!"TIMEOUT-BR" ()
   (.node (.node (.node .nil
      k!"TIMEOUT-BS" ()
      .nil)
     k!"TIMEOUT-CR" ()
     (.node .nil
      k!"TIMEOUT-CS" ()
      .nil))
    k!"TP-ADDRESS" ()
    (.node (.node .nil
      k!"TP-SDU-REF" ()
      .nil)
     k!"CHANNEL-REF" ()
     .nil)))
  k!"CONTEXT-REF" ()
  (.node (.node (.node (.node .nil
      k!"CURRENT-EXP" ()
      .nil)
     k!"DATA-LENGTH" ()
     (.node .nil
      k!"DATA-OFFSET" ()
      .nil))
    k!"ELEMENT-REF" ()
    (.node (.node .nil
      k!"HW-TYPE-REF" ()
      .nil)
     k!"IS-REQUIRED" ()
     (.node .nil
      k!"KEEP-ALIVES" ()
      .nil)))
   k!"KEY-SLOT-ID" ()
   (.node (.node (.node .nil
      k!"LOWER-LIMIT" ()
      .nil)
     k!"MAPPING-REF" ()
     (.node .nil
      k!"MAX-FC-WAIT" ()
      .nil))
    k!"MSG-ID-MASK" ()
    (.node (.node .nil
      k!"N-DATA-SETS" ()
      .nil)
     k!"PACKAGE-REF" ()
     .nil)))))

def textTags04 : Bst (Unit) :=
 (.node (.node (.node (.node (.node (.node .nil
      k!"PORT-NUMBER" ()
      .nil)
     k!"RELIABILITY" ()
     (.node .nil
      k!"SHORT-LABEL" ()
      .nil))
    k!"TRIGGER-REF" ()
    (.node (.node .nil
      k!"UPDATE-KIND" ()
      .nil)
     k!"UPPER-LIMIT" ()
     (.node .nil
      k!"AUTO-COLLECT" ()
      .nil)))
   k!"BEHAVIOR-REF" ()
   (.node (.node (.node .nil
      k!"BIT-POSITION" ()
      .nil)
     k!"BOR-TIME-L-1" ()
     (.node .nil
      k!"BOR-TIME-L-2" ()
      .nil))
    k!"CANCELLATION" ()
    (.node (.node .nil
      k!"CHANNEL-MODE" ()
      .nil)
     k!"CHANNEL-NAME" ()
     .nil)))
  k!"CONFIG-CLASS" ()
  (.node (.node (.node (.node .nil
      k!"CONSTANT-REF" ()
      .nil)
     k!"CONSTR-LEVEL" ()
     (.node .nil
      k!"DATA-ID-MODE" ()
      .nil))
    k!"DATA-PDU-REF" ()
    (.node (.node .nil
      k!"DISPLAY-NAME" ()
      .nil)
     k!"ECU-INSTANCE" ()
     (.node .nil
      k!"ELEMENT-ROLE" ()
      .nil)))
   k!"FIXED-LENGTH" ()
   (.node (.node (.node .nil
      k!"FLAT-MAP-REF" ()
      .nil)
     k!"FRAME-LENGTH" ()
     (.node .nil
      k!"I-SIGNAL-REF" ()
      .nil))
    k!"INDIRECT-API" ()
    (.node (.node .nil
      k!"IS-REENTRANT" ()
      .nil)
     k!"LC-STATE-REF" ()
     .nil))))
 k!"LIN-CHECKSUM" ()
 (.node (.node (.node (.node (.node .nil
      k!"LISTEN-NOISE" ()
      .nil)
     k!"LOWER-CAN-ID" ()
     (.node .nil
      k!"MAX-GRADIENT" ()
      .nil))
    k!"MSG-ID-MATCH" ()
    (.node (.node .nil
      k!"N-ROM-BLOCKS" ()
      .nil)
     k!"PORT-ADDRESS" ()
     (.node .nil
      k!"PROFILE-NAME" ()
      .nil)))
   k!"QUEUE-LENGTH" ()
   (.node (.node (.node .nil
      k!"RECEIVER-REF" ()
      .nil)
     k!"RESPONSE-REF" ()
     (.node .nil
      k!"RPT-EVENT-ID" ()
      .nil))
    k!"SECTION-TYPE" ()
    (.node (.node .nil
      k!"SERVICE-KIND" ()
      .nil)
     k!"STORE-CYCLIC" ()
     .nil)))
  k!"SW-ALIGNMENT" ()
  (.node (.node (.node (.node .nil
      k!"TCP-IP-PROPS" ()
      .nil)
     k!"TEST-PATTERN" ()
     (.node .nil
      k!"TRIGGER-MODE" ()
      .nil))
    k!"TYPE-EMITTER" ()
    (.node (.node .nil
      k!"UPPER-CAN-ID" ()
      .nil)
     k!"USED-FID-REF" ()
     (.node .nil
      k!"USED-PIM-REF" ()
      .nil)))
   k!"VARIABLE-REF" ()
   (.node (.node (.node .nil
      k!"ALIVE-TIMEOUT" ()
      .nil)
     k!"API-PRINCIPLE" ()
     (.node .nil
      k!"BASE-TYPE-REF" ()
      .nil))
    k!"CONNECTOR-REF" ()
    (.node (.node .nil
      k!"COUNT-PROFILE" ()
      .nil)
     k!"DEFAULT-VALUE" ()
     .nil)))))

def textTags05 : Bst (Unit) :=
 .node textTags03 k!"PAYLOAD-REF" () textTags04

def textTags06 : Bst (Unit) :=
 .node textTags02 k!"VALUE-REF" () textTags05

def textTags07 : Bst (Unit) :=
 (.node (.node (.node (.node (.node (.node .nil
      k!"ENABLE-UPDATE" ()
      .nil)
     k!"EXTERNAL-SYNC" ()
     (.node .nil
      k!"HEADER-LENGTH" ()
      .nil))
    k!"I-SIGNAL-TYPE" ()
    (.node (.node .nil
      k!"INTERFACE-REF" ()
      .nil)
     k!"IPV-6-ADDRESS" ()
     (.node .nil
      k!"LC-OBJECT-REF" ()
      .nil)))
   k!"MAX-COMM-MODE" ()
   (.node (.node (.node .nil
      k!"MEM-ALIGNMENT" ()
      .nil)
     k!"MINIMUM-DELAY" ()
     (.node .nil
      k!"MINOR-VERSION" ()
      .nil))
    k!"MULTICAST-REF" ()
    (.node (.node .nil
      k!"NM-CHANNEL-ID" ()
      .nil)
     k!"NM-IF-ECU-REF" ()
     .nil)))
  k!"OPERATION-REF" ()
  (.node (.node (.node (.node .nil
      k!"PADDING-VALUE" ()
      .nil)
     k!"PARAMETER-REF" ()
     (.node .nil
      k!"PN-RESET-TIME" ()
      .nil))
    k!"PROTOCOL-NAME" ()
    (.node (.node .nil
      k!"REACTION-CODE" ()
      .nil)
     k!"RX-NM-PDU-REF" ()
     (.node .nil
      k!"SAFETY-MARGIN" ()
      .nil)))
   k!"SEND-ACTIVITY" ()
   (.node (.node (.node .nil
      k!"SUB-GROUP-REF" ()
      .nil)
     k!"SUCCESSOR-REF" ()
     (.node .nil
      k!"SW-AXIS-INDEX" ()
      .nil))
    k!"SW-IS-VIRTUAL" ()
    (.node (.node .nil
      k!"SYMBOL-WINDOW" ()
      .nil)
     k!"TP-TECHNOLOGY" ()
     .nil))))
 k!"TX-NM-PDU-REF" ()
 (.node (.node (.node (.node (.node .nil
      k!"WAKEUP-RX-LOW" ()
      .nil)
     k!"AUTO-AVAILABLE" ()
     (.node .nil
      k!"BASE-TYPE-SIZE" ()
      .nil))
    k!"BSW-ENTITY-REF" ()
    (.node (.node .nil
      k!"BSW-ENTRY-KIND" ()
      .nil)
     k!"CAS-RX-LOW-MAX" ()
     (.node .nil
      k!"CLASSIFICATION" ()
      .nil)))
   k!"CONFIG-VARIANT" ()
   (.node (.node (.node .nil
      k!"CONTROLLER-REF" ()
      .nil)
     k!"COUNTER-OFFSET" ()
     (.node .nil
      k!"DEFAULT-ROUTER" ()
      .nil))
    k!"DEFINITION-REF" ()
    (.node (.node .nil
      k!"DISPLAY-FORMAT" ()
      .nil)
     k!"DYNAMIC-LENGTH" ()
     .nil)))
  k!"ECUC-QUERY-REF" ()
  (.node (.node (.node (.node .nil
      k!"ENABLE-ANYCAST" ()
      .nil)
     k!"ERROR-HANDLING" ()
     (.node .nil
      k!"FIRST-MODE-REF" ()
      .nil))
    k!"FRAME-PORT-REF" ()
    (.node (.node .nil
      k!"HANDLE-INVALID" ()
      .nil)
     k!"HW-ELEMENT-REF" ()
     (.node .nil
      k!"I-PDU-PORT-REF" ()
      .nil)))
   k!"INDUSTRY-GROUP" ()
   (.node (.node (.node .nil
      k!"INITIAL-STATUS" ()
      .nil)
     k!"IS-SYNCHRONOUS" ()
     (.node .nil
      k!"LISTEN-TIMEOUT" ()
      .nil))
    k!"MAC-LAYER-TYPE" ()
    (.node (.node .nil
      k!"MAX-BLOCK-SIZE" ()
      .nil)
     k!"MODE-GROUP-REF" ()
     .nil)))))

def textTags08 : Bst (Unit) :=
 (.node (.node (.node (.node (.node (.node .nil
      k!"NUMBER-OF-BITS" ()
      .nil)
     k!"OUTER-PORT-REF" ()
     (.node .nil
      k!"PNC-NM-REQUEST" ()
      .nil))
    k!"PORT-SCHEDULER" ()
    (.node (.node .nil
      k!"PROCESSOR-MODE" ()
      .nil)
     k!"REQUIRES-INDEX" ()
     (.node .nil
      k!"REVISION-LABEL" ()
      .nil)))
   k!"SEGMENT-LENGTH" ()
   (.node (.node (.node .nil
      k!"START-POSITION" ()
      .nil)
     k!"SW-IMPL-POLICY" ()
     (.node .nil
      k!"SYSTEM-VERSION" ()
      .nil))
    k!"TP-ADDRESS-REF" ()
    (.node (.node .nil
      k!"UDS-DTC-NUMBER" ()
      .nil)
     k!"UNIT-GROUP-REF" ()
     .nil)))
  k!"VEHICLE-SYSTEM" ()
  (.node (.node (.node (.node .nil
      k!"WAKEUP-RX-IDLE" ()
      .nil)
     k!"WAKEUP-TX-IDLE" ()
     (.node .nil
      k!"BSW-TRIGGER-REF" ()
      .nil))
    k!"CAN-FD-BAUDRATE" ()
    (.node (.node .nil
      k!"CAN-XL-BAUDRATE" ()
      .nil)
     k!"CLIENT-PORT-REF" ()
     (.node .nil
      k!"CONNECTION-TYPE" ()
      .nil)))
   k!"CONTROL-PNC-REF" ()
   (.node (.node (.node .nil
      k!"CSE-CODE-FACTOR" ()
      .nil)
     k!"CYCLE-COUNT-MAX" ()
     (.node .nil
      k!"DATA-CONSTR-REF" ()
      .nil))
    k!"DESTINATION-REF" ()
    (.node (.node .nil
      k!"DTC-FORMAT-TYPE" ()
      .nil)
     k!"ECU-EXTRACT-REF" ()
     .nil))))
 k!"EVENT-NEEDS-REF" ()
 (.node (.node (.node (.node (.node .nil
      k!"EXITED-MODE-REF" ()
      .nil)
     k!"HW-CATEGORY-REF" ()
     (.node .nil
      k!"IGNORE-AFTER-TX" ()
      .nil))
    k!"KEEP-ALIVE-TIME" ()
    (.node (.node .nil
      k!"MACRO-PER-CYCLE" ()
      .nil)
     k!"MAX-ALIVE-CYCLE" ()
     (.node .nil
      k!"MC-FUNCTION-REF" ()
      .nil)))
   k!"MICRO-PER-CYCLE" ()
   (.node (.node (.node .nil
      k!"MIN-ALIVE-CYCLE" ()
      .nil)
     k!"NM-CBV-POSITION" ()
     (.node .nil
      k!"NM-NID-POSITION" ()
      .nil))
    k!"OPERATION-CYCLE" ()
    (.node (.node .nil
      k!"PROCESSING-KIND" ()
      .nil)
     k!"PROCESSOR-SPEED" ()
     .nil)))
  k!"RESUME-POSITION" ()
  (.node (.node (.node (.node .nil
      k!"RPT-HOOK-ACCESS" ()
      .nil)
     k!"RPT-READ-ACCESS" ()
     (.node .nil
      k!"SECOND-MODE-REF" ()
      .nil))
    k!"SERVER-PORT-REF" ()
    (.node (.node .nil
      k!"SERVICE-CONTROL" ()
      .nil)
     k!"STORE-EMERGENCY" ()
     (.node .nil
      k!"STORE-IMMEDIATE" ()
      .nil)))
   k!"SYNC-JUMP-WIDTH" ()
   (.node (.node (.node .nil
      k!"TARGET-CATEGORY" ()
      .nil)
     k!"TARGET-MODE-REF" ()
     (.node .nil
      k!"TEMPERATURE-EXP" ()
      .nil))
    k!"TESTED-ITEM-REF" ()
    (.node (.node .nil
      k!"TRANSFORMER-REF" ()
      .nil)
     k!"TRANSMITTER-REF" ()
     .nil)))))

def textTags09 : Bst (Unit) :=
 .node textTags07 k!"MSR-QUERY-NAME" () textTags08

def textTags10 : Bst (Unit) :=
 (.node (.node (.node (.node (.node (.node .nil
      k!"USE-INSTEAD-REF" ()
      .nil)
     k!"V-2-X-SUPPORTED" ()
     (.node .nil
      k!"VALUE-TYPE-TREF" ()
      .nil))
    k!"VLAN-IDENTIFIER" ()
    (.node (.node .nil
      k!"WAKE-UP-PATTERN" ()
      .nil)
     k!"WRITE-ONLY-ONCE" ()
     (.node .nil
      k!"ACCESS-POINT-REF" ()
      .nil)))
   k!"BSW-BEHAVIOR-REF" ()
   (.node (.node (.node .nil
      k!"CALLED-ENTRY-REF" ()
      .nil)
     k!"COMPU-METHOD-REF" ()
     (.node .nil
      k!"CONTEXT-PORT-REF" ()
      .nil))
    k!"CYCLE-REPETITION" ()
    (.node (.node .nil
      k!"DATA-ELEMENT-REF" ()
      .nil)
     k!"DATA-FILTER-TYPE" ()
     .nil)))
  k!"DATA-TYPE-POLICY" ()
  (.node (.node (.node (.node .nil
      k!"DEFAULT-MODE-REF" ()
      .nil)
     k!"DESTINATION-TYPE" ()
     (.node .nil
      k!"DETECT-NIT-ERROR" ()
      .nil))
    k!"ECU-INSTANCE-REF" ()
    (.node (.node .nil
      k!"ECUC-DEF-EDITION" ()
      .nil)
     k!"ENTERED-MODE-REF" ()
     (.node .nil
      k!"EVENT-SOURCE-REF" ()
      .nil)))
   k!"FLOW-CONTROL-REF" ()
   (.node (.node (.node .nil
      k!"HW-PIN-GROUP-REF" ()
      .nil)
     k!"IDENTIFIABLE-REF" ()
     (.node .nil
      k!"IDENTITIY-NUMBER" ()
      .nil))
    k!"INGRESS-PRIORITY" ()
    (.node (.node .nil
      k!"INITIAL-MODE-REF" ()
      .nil)
     k!"INTERRUPT-SOURCE" ()
     .nil))))
 k!"LIN-TP-N-SDU-REF" ()
 (.node (.node (.node (.node (.node .nil
      k!"MAX-RPT-EVENT-ID" ()
      .nil)
     k!"MAX-SAMPLE-POINT" ()
     (.node .nil
      k!"MAX-SIZE-TO-FILL" ()
      .nil))
    k!"MEM-CLASS-SYMBOL" ()
    (.node (.node .nil
      k!"MIN-RPT-EVENT-ID" ()
      .nil)
     k!"MIN-SAMPLE-POINT" ()
     (.node .nil
      k!"MOLAR-AMOUNT-EXP" ()
      .nil)))
   k!"NAGLES-ALGORITHM" ()
   (.node (.node (.node .nil
      k!"NM-COORD-CLUSTER" ()
      .nil)
     k!"PNC-GATEWAY-TYPE" ()
     (.node .nil
      k!"PROCESSING-STYLE" ()
      .nil))
    k!"PROFILE-BEHAVIOR" ()
    (.node (.node .nil
      k!"PROTOCOL-VERSION" ()
      .nil)
     k!"RAM-LOCATION-REF" ()
     .nil)))
  k!"REENTRANCY-LEVEL" ()
  (.node (.node (.node (.node .nil
      k!"RESTORE-AT-START" ()
      .nil)
     k!"ROM-LOCATION-REF" ()
     (.node .nil
      k!"RPT-WRITE-ACCESS" ()
      .nil))
    k!"SAFE-TRANSLATION" ()
    (.node (.node .nil
      k!"SEGMENT-POSITION" ()
      .nil)
     k!"SIGNAL-GROUP-REF" ()
     (.node .nil
      k!"SOURCE-I-PDU-REF" ()
      .nil)))
   k!"SUB-FUNCTION-REF" ()
   (.node (.node (.node .nil
      k!"SW-AXIS-TYPE-REF" ()
      .nil)
     k!"SW-MAX-TEXT-SIZE" ()
     (.node .nil
      k!"SWC-BEHAVIOR-REF" ()
      .nil))
    k!"SWC-RUNNABLE-REF" ()
    (.node (.node .nil
      k!"TARGET-EVENT-REF" ()
      .nil)
     k!"TARGET-I-PDU-REF" ()
     .nil)))))

def textTags11 : Bst (Unit) :=
 (.node (.node (.node (.node (.node (.node .nil
      k!"TIME-BASE-JITTER" ()
      .nil)
     k!"TIMING-EVENT-REF" ()
     (.node .nil
      k!"VENDOR-API-INFIX" ()
      .nil))
    k!"WAKEUP-RX-WINDOW" ()
    (.node (.node .nil
      k!"WAKEUP-TX-ACTIVE" ()
      .nil)
     k!"WINDOW-SIZE-INIT" ()
     (.node .nil
      k!"WRITING-PRIORITY" ()
      .nil)))
   k!"ACTIVATE-AT-START" ()
   (.node (.node (.node .nil
      k!"ADDRESSING-FORMAT" ()
      .nil)
     k!"ANNOTATION-ORIGIN" ()
     (.node .nil
      k!"CS-ERROR-REACTION" ()
      .nil))
    k!"CURRENT-VALUE-REF" ()
    (.node (.node .nil
      k!"DEFERRING-FID-REF" ()
      .nil)
     k!"DIAG-ROUTINE-TYPE" ()
     .nil)))
  k!"DO-IP-ENTITY-ROLE" ()
  (.node (.node (.node (.node .nil
      k!"ENHANCED-MODE-API" ()
      .nil)
     k!"EXECUTION-CONTEXT" ()
     (.node .nil
      k!"FACTOR-SI-TO-UNIT" ()
      .nil))
    k!"FIBEX-ELEMENT-REF" ()
    (.node (.node .nil
      k!"FIREWALL-RULE-REF" ()
      .nil)
     k!"FUNCTION-INSTANCE" ()
     (.node .nil
      k!"I-SIGNAL-PORT-REF" ()
      .nil)))
   k!"IDENTICAL-MAPPING" ()
   (.node (.node (.node .nil
      k!"MANUFACTURER-CODE" ()
      .nil)
     k!"MAPPING-DIRECTION" ()
     (.node .nil
      k!"MAX-DELTA-COUNTER" ()
      .nil))
    k!"MIN-OK-STATE-INIT" ()
    (.node (.node .nil
      k!"MINISLOT-DURATION" ()
      .nil)
     k!"NETWORK-IDLE-TIME" ()
     .nil))))
 k!"NM-CHANNEL-ACTIVE" ()
 (.node (.node (.node (.node (.node .nil
      k!"NM-MSG-CYCLE-TIME" ()
      .nil)
     k!"OFFSET-SI-TO-UNIT" ()
     (.node .nil
      k!"POSITION-IN-TABLE" ()
      .nil))
    k!"RECEIVED-DATA-REF" ()
    (.node (.node .nil
      k!"ROUTING-GROUP-REF" ()
      .nil)
     k!"RPT-SERVICE-POINT" ()
     (.node .nil
      k!"SOURCE-SIGNAL-REF" ()
      .nil)))
   k!"STORE-AT-SHUTDOWN" ()
   (.node (.node (.node .nil
      k!"SW-ADDRMETHOD-REF" ()
      .nil)
     k!"SW-FILL-CHARACTER" ()
     (.node .nil
      k!"SYNC-COUNTER-INIT" ()
      .nil))
    k!"SYSTEM-SIGNAL-REF" ()
    (.node (.node .nil
      k!"TARGET-MODULE-REF" ()
      .nil)
     k!"TARGET-P-PORT-REF" ()
     .nil)))
  k!"TARGET-R-PORT-REF" ()
  (.node (.node (.node (.node .nil
      k!"TARGET-SIGNAL-REF" ()
      .nil)
     k!"TCP-IP-ICMP-PROPS" ()
     (.node .nil
      k!"TRANSFER-PROPERTY" ()
      .nil))
    k!"TRANSFORMER-CLASS" ()
    (.node (.node .nil
      k!"TRANSMISSION-MODE" ()
      .nil)
     k!"TWO-KEY-SLOT-MODE" ()
     .nil))
   k!"USES-MONITOR-DATA" ()
   (.node (.node (.node .nil
      k!"WINDOW-SIZE-VALID" ()
      .nil)
     k!"WRITING-FREQUENCY" ()
     (.node .nil
      k!"API-SERVICE-PREFIX" ()
      .nil))
    k!"AR-RELEASE-VERSION" ()
    (.node (.node .nil
      k!"ASSIGNED-ENTRY-REF" ()
      .nil)
     k!"BASE-REFERENCE-REF" ()
     .nil)))))

def textTags12 : Bst (Unit) :=
 .node textTags10 k!"TARGET-MODULE-ID" () textTags11

def textTags13 : Bst (Unit) :=
 .node textTags09 k!"TYPE-DEFINITION" () textTags12

def textTags14 : Bst (Unit) :=
 .node textTags06 k!"DIAG-PDU-TYPE" () textTags13

def textTags15 : Bst (Unit) :=
 (.node (.node (.node (.node (.node (.node .nil
      k!"BSW-MODE-GROUP-REF" ()
      .nil)
     k!"CALC-RAM-BLOCK-CRC" ()
     (.node .nil
      k!"CAN-TP-CHANNEL-REF" ()
      .nil))
    k!"COMMUNICATION-MODE" ()
    (.node (.node .nil
      k!"CONTEXT-P-PORT-REF" ()
      .nil)
     k!"CONTEXT-R-PORT-REF" ()
     (.node .nil
      k!"CONTROLLED-FID-REF" ()
      .nil)))
   k!"DATA-UPDATE-PERIOD" ()
   (.node (.node (.node .nil
      k!"DIAG-ARG-INTEGRITY" ()
      .nil)
     k!"DISPLAY-IDENTIFIER" ()
     (.node .nil
      k!"ECU-TASK-PROXY-REF" ()
      .nil))
    k!"EXCLUSIVE-AREA-REF" ()
    (.node (.node .nil
      k!"FALL-BACK-INTERNAL" ()
      .nil)
     k!"FLAT-MAP-ENTRY-REF" ()
     .nil)))
  k!"FRESHNESS-VALUE-ID" ()
  (.node (.node (.node (.node .nil
      k!"HANDLE-DATA-STATUS" ()
      .nil)
     k!"HAS-DYNAMIC-LENGTH" ()
     (.node .nil
      k!"HAS-INTERNAL-STATE" ()
      .nil))
    k!"I-SIGNAL-GROUP-REF" ()
    (.node (.node .nil
      k!"I-SIGNAL-I-PDU-REF" ()
      .nil)
     k!"IMPLEMENTED-IN-REF" ()
     (.node .nil
      k!"INHIBITING-FID-REF" ()
      .nil)))
   k!"INTERRUPT-CATEGORY" ()
   (.node (.node (.node .nil
      k!"LOCAL-VARIABLE-REF" ()
      .nil)
     k!"LOWER-MULTIPLICITY" ()
     (.node .nil
      k!"MACROTICK-DURATION" ()
      .nil))
    k!"MAXIMUM-KEY-LENGTH" ()
    (.node (.node .nil
      k!"MEMORY-CONSUMPTION" ()
      .nil)
     k!"MICROTICK-DURATION" ()
     .nil))))
 k!"MIN-OK-STATE-VALID" ()
 (.node (.node (.node (.node (.node .nil
      k!"NATIVE-DECLARATION" ()
      .nil)
     k!"NM-NETWORK-TIMEOUT" ()
     (.node .nil
      k!"NM-NODE-ID-ENABLED" ()
      .nil))
    k!"OFFER-CYCLIC-DELAY" ()
    (.node (.node .nil
      k!"PACKING-BYTE-ORDER" ()
      .nil)
     k!"PADDING-ACTIVATION" ()
     (.node .nil
      k!"PDU-TRIGGERING-REF" ()
      .nil)))
   k!"PORT-PROTOTYPE-REF" ()
   (.node (.node (.node .nil
      k!"POSSIBLE-ERROR-REF" ()
      .nil)
     k!"REGULAR-EXPRESSION" ()
     (.node .nil
      k!"SECOND-KEY-SLOT-ID" ()
      .nil))
    k!"SECURE-TRANSLATION" ()
    (.node (.node .nil
      k!"SEGMENT-BYTE-ORDER" ()
      .nil)
     k!"SERVICE-IDENTIFIER" ()
     .nil)))
  k!"SOURCE-ELEMENT-REF" ()
  (.node (.node (.node (.node .nil
      k!"START-ON-EVENT-REF" ()
      .nil)
     k!"SUPPORT-DIRTY-FLAG" ()
     (.node .nil
      k!"SW-ADDR-METHOD-REF" ()
      .nil))
    k!"SW-MAX-AXIS-POINTS" ()
    (.node (.node .nil
      k!"SW-MIN-AXIS-POINTS" ()
      .nil)
     k!"SW-SYSTEMCONST-REF" ()
     (.node .nil
      k!"TARGET-TRIGGER-REF" ()
      .nil)))
   k!"TX-BIT-RATE-SWITCH" ()
   (.node (.node (.node .nil
      k!"UNUSED-BIT-PATTERN" ()
      .nil)
     k!"UPPER-MULTIPLICITY" ()
     (.node .nil
      k!"WRITE-VERIFICATION" ()
      .nil))
    k!"ACTION-POINT-OFFSET" ()
    (.node (.node .nil
      k!"ARRAY-SIZE-HANDLING" ()
      .nil)
     k!"ASSIGNMENT-PRIORITY" ()
     .nil)))))

def textTags16 : Bst (Unit) :=
 (.node (.node (.node (.node (.node (.node .nil
      k!"CALLBACK-HEADER-REF" ()
      .nil)
     k!"CAN-ADDRESSING-MODE" ()
     (.node .nil
      k!"COLD-START-ATTEMPTS" ()
      .nil))
    k!"COMM-CONTROLLER-REF" ()
    (.node (.node .nil
      k!"CONTEXT-ELEMENT-REF" ()
      .nil)
     k!"COUPLED-CLUSTER-REF" ()
     (.node .nil
      k!"DATA-LENGTH-REQUEST" ()
      .nil)))
   k!"DECODING-CORRECTION" ()
   (.node (.node (.node .nil
      k!"DESTINATION-CONTEXT" ()
      .nil)
     k!"DESTINATION-URI-REF" ()
     (.node .nil
      k!"ECU-EXTRACT-VERSION" ()
      .nil))
    k!"ENABLE-DEACTIVATION" ()
    (.node (.node .nil
      k!"ENABLE-TAKE-ADDRESS" ()
      .nil)
     k!"FIRST-OPERATION-REF" ()
     .nil)))
  k!"FRESHNESS-PROPS-REF" ()
  (.node (.node (.node (.node .nil
      k!"HANDLE-OUT-OF-RANGE" ()
      .nil)
     k!"HANDLE-TIMEOUT-TYPE" ()
     (.node .nil
      k!"INDEX-DATA-TYPE-REF" ()
      .nil))
    k!"INSTANCE-IDENTIFIER" ()
    (.node (.node .nil
      k!"KEEP-ALIVE-INTERVAL" ()
      .nil)
     k!"LOCAL-PARAMETER-REF" ()
     (.node .nil
      k!"MAX-SYNC-JUMP-WIDTH" ()
      .nil)))
   k!"MESSAGE-LINK-LENGTH" ()
   (.node (.node (.node .nil
      k!"MIN-SYNC-JUMP-WIDTH" ()
      .nil)
     k!"MULTICAST-THRESHOLD" ()
     (.node .nil
      k!"NEEDS-ORIGINAL-DATA" ()
      .nil))
    k!"NM-COORDINATOR-ROLE" ()
    (.node (.node .nil
      k!"NM-MSG-CYCLE-OFFSET" ()
      .nil)
     k!"NM-MSG-REDUCED-TIME" ()
     .nil))))
 k!"NM-USER-DATA-LENGTH" ()
 (.node (.node (.node (.node (.node .nil
      k!"NUMBER-OF-MINISLOTS" ()
      .nil)
     k!"ON-TRANSITION-VALUE" ()
     (.node .nil
      k!"PROVIDED-MEMORY-REF" ()
      .nil))
    k!"RATE-CORRECTION-OUT" ()
    (.node (.node .nil
      k!"REFERENCE-TABLE-REF" ()
      .nil)
     k!"SAMPLE-CLOCK-PERIOD" ()
     (.node .nil
      k!"SECURED-AREA-LENGTH" ()
      .nil)))
   k!"SECURED-AREA-OFFSET" ()
   (.node (.node (.node .nil
      k!"SELECTOR-FIELD-CODE" ()
      .nil)
     k!"SENSOR-ACTUATOR-REF" ()
     (.node .nil
      k!"STARTS-ON-EVENT-REF" ()
      .nil))
    k!"SW-VALUE-BLOCK-SIZE" ()
    (.node (.node .nil
      k!"SWC-BSW-MAPPING-REF" ()
      .nil)
     k!"SYMBOLIC-NAME-VALUE" ()
     .nil)))
  k!"UNIT-AND-SCALING-ID" ()
  (.node (.node (.node (.node .nil
      k!"USED-CODE-GENERATOR" ()
      .nil)
     k!"WINDOW-SIZE-INVALID" ()
     (.node .nil
      k!"ARRAY-SIZE-SEMANTICS" ()
      .nil))
    k!"BASE-IS-THIS-PACKAGE" ()
    (.node (.node .nil
      k!"BSW-MODULE-ENTRY-REF" ()
      .nil)
     k!"CAN-FD-FRAME-SUPPORT" ()
     (.node .nil
      k!"COLLECTION-SEMANTICS" ()
      .nil)))
   k!"DATA-LENGTH-RESPONSE" ()
   (.node (.node (.node .nil
      k!"DEFAULT-LC-STATE-REF" ()
      .nil)
     k!"DELAY-COMPENSATION-A" ()
     (.node .nil
      k!"DELAY-COMPENSATION-B" ()
      .nil))
    k!"DISPLAY-PRESENTATION" ()
    (.node (.node .nil
      k!"DYNAMICALLY-ASSIGNED" ()
      .nil)
     k!"EXPECTED-ALIVE-CYCLE" ()
     .nil)))))

def textTags17 : Bst (Unit) :=
 .node textTags15 k!"AUTH-INFO-TX-LENGTH" () textTags16

def textTags18 : Bst (Unit) :=
 (.node (.node (.node (.node (.node (.node .nil
      k!"FIRST-MODE-GROUP-REF" ()
      .nil)
     k!"FLOW-CONTROL-PDU-REF" ()
     (.node .nil
      k!"FRAME-TRIGGERING-REF" ()
      .nil))
    k!"HARDWARE-ELEMENT-REF" ()
    (.node (.node .nil
      k!"HW-ATTRIBUTE-DEF-REF" ()
      .nil)
     k!"INCLUDED-LIBRARY-REF" ()
     (.node .nil
      k!"INCLUDED-VARIANT-REF" ()
      .nil)))
   k!"INITIAL-DYNAMIC-PART" ()
   (.node (.node (.node .nil
      k!"IPV-6-ADDRESS-SOURCE" ()
      .nil)
     k!"MAX-ERROR-STATE-INIT" ()
     (.node .nil
      k!"MC-DATA-INSTANCE-REF" ()
      .nil))
    k!"MIN-OK-STATE-INVALID" ()
    (.node (.node .nil
      k!"NETWORK-ENDPOINT-REF" ()
      .nil)
     k!"NM-USER-DATA-ENABLED" ()
     .nil)))
  k!"PHYSICAL-REQUEST-REF" ()
  (.node (.node (.node (.node .nil
      k!"PROGRAMMING-LANGUAGE" ()
      .nil)
     k!"REGENERATED-PRIORITY" ()
     (.node .nil
      k!"SECOND-OPERATION-REF" ()
      .nil))
    k!"SHARED-AXIS-TYPE-REF" ()
    (.node (.node .nil
      k!"SLEEP-MODE-SUPPORTED" ()
      .nil)
     k!"STATIC-SLOT-DURATION" ()
     (.node .nil
      k!"SW-RECORD-LAYOUT-REF" ()
      .nil)))
   k!"TARGET-COMPONENT-REF" ()
   (.node (.node (.node .nil
      k!"TARGET-RTE-EVENT-REF" ()
      .nil)
     k!"TRANSFORMATION-PROPS" ()
     (.node .nil
      k!"TRANSMISSION-TRIGGER" ()
      .nil))
    k!"USE-SMART-SENSOR-API" ()
    (.node (.node .nil
      k!"ACCESSED-VARIABLE-REF" ()
      .nil)
     k!"CAN-FRAME-RX-BEHAVIOR" ()
     .nil))))
 k!"CAN-FRAME-TX-BEHAVIOR" ()
 (.node (.node (.node (.node (.node .nil
      k!"CHECK-STATIC-BLOCK-ID" ()
      .nil)
     k!"CLUSTER-DRIFT-DAMPING" ()
     (.node .nil
      k!"CONTEXT-COMPONENT-REF" ()
      .nil))
    k!"DATA-ID-NIBBLE-OFFSET" ()
    (.node (.node .nil
      k!"DATA-TYPE-MAPPING-REF" ()
      .nil)
     k!"DENOMINATOR-CONDITION" ()
     (.node .nil
      k!"ECUC-QUERY-STRING-REF" ()
      .nil)))
   k!"ERROR-REACTION-POLICY" ()
   (.node (.node (.node .nil
      k!"EXECUTABLE-ENTITY-REF" ()
      .nil)
     k!"EXECUTION-CONTEXT-REF" ()
     (.node .nil
      k!"HANDLE-NEVER-RECEIVED" ()
      .nil))
    k!"HEADER-ID-LONG-HEADER" ()
    (.node (.node .nil
      k!"I-SIGNAL-IN-I-PDU-REF" ()
      .nil)
     k!"IMPLEMENTED-ENTRY-REF" ()
     .nil)))
  k!"KEEP-ALIVE-PROBES-MAX" ()
  (.node (.node (.node (.node .nil
      k!"KEY-SLOT-ONLY-ENABLED" ()
      .nil)
     k!"LOAD-BALANCING-WEIGHT" ()
     (.node .nil
      k!"MAC-MULTICAST-ADDRESS" ()
      .nil))
    k!"MAX-ERROR-STATE-VALID" ()
    (.node (.node .nil
      k!"MESSAGE-LINK-POSITION" ()
      .nil)
     k!"MINIMUM-SEND-INTERVAL" ()
     (.node .nil
      k!"NUMBER-OF-REPETITIONS" ()
      .nil)))
   k!"OFFSET-CORRECTION-OUT" ()
   (.node (.node (.node .nil
      k!"PAYLOAD-LENGTH-STATIC" ()
      .nil)
     k!"RPT-ENABLER-IMPL-TYPE" ()
     (.node .nil
      k!"RPT-EXECUTION-CONTROL" ()
      .nil))
    k!"RPT-PREPARATION-LEVEL" ()
    (.node (.node .nil
      k!"SAMPLES-PER-MICROTICK" ()
      .nil)
     k!"SECOND-MODE-GROUP-REF" ()
     .nil)))))

def textTags19 : Bst (Unit) :=
 (.node (.node (.node (.node (.node (.node .nil
      k!"SW-CALIBRATION-ACCESS" ()
      .nil)
     k!"TARGET-MODE-GROUP-REF" ()
     (.node .nil
      k!"TRANSFORMER-CHAIN-REF" ()
      .nil))
    k!"TRCV-PWM-MODE-ENABLED" ()
    (.node (.node .nil
      k!"ACCEPTED-STARTUP-RANGE" ()
      .nil)
     k!"ADDITIONAL-INFORMATION" ()
     (.node .nil
      k!"AUTHENTICATION-RETRIES" ()
      .nil)))
   k!"BOR-COUNTER-L-1-TO-L-2" ()
   (.node (.node (.node .nil
      k!"CONTEXT-DATA-PROTOTYPE" ()
      .nil)
     k!"CONTEXT-LIMITATION-REF" ()
     (.node .nil
      k!"DROP-NOT-REQUESTED-NAD" ()
      .nil))
    k!"ENCAPSULATED-ENTRY-REF" ()
    (.node (.node .nil
      k!"EVENT-GROUP-IDENTIFIER" ()
      .nil)
     k!"EXTERN-RATE-CORRECTION" ()
     .nil)))
  k!"FRESHNESS-VALUE-LENGTH" ()
  (.node (.node (.node (.node .nil
      k!"FUNCTIONAL-REQUEST-REF" ()
      .nil)
     k!"HEADER-ID-SHORT-HEADER" ()
     (.node .nil
      k!"KEY-SLOT-USED-FOR-SYNC" ()
      .nil))
    k!"LUMINOUS-INTENSITY-EXP" ()
    (.node (.node .nil
      k!"MACRO-INITIAL-OFFSET-A" ()
      .nil)
     k!"MACRO-INITIAL-OFFSET-B" ()
     (.node .nil
      k!"MATCHING-CRITERION-REF" ()
      .nil)))
   k!"MAX-DELTA-COUNTER-INIT" ()
   (.node (.node (.node .nil
      k!"MAX-NUMBER-OF-ELEMENTS" ()
      .nil)
     k!"MICRO-INITIAL-OFFSET-A" ()
     (.node .nil
      k!"MICRO-INITIAL-OFFSET-B" ()
      .nil))
    k!"MINIMUM-START-INTERVAL" ()
    (.node (.node .nil
      k!"MODULE-DESCRIPTION-REF" ()
      .nil)
     k!"NM-COM-CONTROL-ENABLED" ()
     .nil))))
 k!"NM-REPEAT-MESSAGE-TIME" ()
 (.node (.node (.node (.node (.node .nil
      k!"NM-VECTOR-EARLY-UPDATE" ()
      .nil)
     k!"NM-WAIT-BUS-SLEEP-TIME" ()
     (.node .nil
      k!"NUMBER-OF-STATIC-SLOTS" ()
      .nil))
    k!"PDU-COLLECTION-TIMEOUT" ()
    (.node (.node .nil
      k!"PDU-COLLECTION-TRIGGER" ()
      .nil)
     k!"PHYSICAL-DIMENSION-REF" ()
     (.node .nil
      k!"PNC-SYNCHRONOUS-WAKEUP" ()
      .nil)))
   k!"REFINED-MODULE-DEF-REF" ()
   (.node (.node (.node .nil
      k!"SW-INTENDED-RESOLUTION" ()
      .nil)
     k!"SW-SERVICE-IMPL-POLICY" ()
     (.node .nil
      k!"USE-CRC-COMP-MECHANISM" ()
      .nil))
    k!"ALLOW-HALT-DUE-TO-CLOCK" ()
    (.node (.node .nil
      k!"ALLOW-PASSIVE-TO-ACTIVE" ()
      .nil)
     k!"COMMUNICATION-DIRECTION" ()
     .nil)))
  k!"CONTEXT-COMPOSITION-REF" ()
  (.node (.node (.node (.node .nil
      k!"DATA-TRANSFORMATION-REF" ()
      .nil)
     k!"DIAGNOSTIC-VALUE-ACCESS" ()
     (.node .nil
      k!"DYNAMIC-SLOT-IDLE-PHASE" ()
      .nil))
    k!"ERROR-SIGNALING-ENABLED" ()
    (.node (.node .nil
      k!"I-SIGNAL-TRIGGERING-REF" ()
      .nil)
     k!"INITIAL-DELAY-MAX-VALUE" ()
     (.node .nil
      k!"INITIAL-DELAY-MIN-VALUE" ()
      .nil)))
   k!"INITIAL-REPETITIONS-MAX" ()
   (.node (.node (.node .nil
      k!"INPUT-VARIABLE-TYPE-REF" ()
      .nil)
     k!"LOAD-BALANCING-PRIORITY" ()
     (.node .nil
      k!"MAX-ERROR-STATE-INVALID" ()
      .nil))
    k!"MULTICAST-CONNECTOR-REF" ()
    (.node (.node .nil
      k!"NM-CHANNEL-SLEEP-MASTER" ()
      .nil)
     k!"NM-MESSAGE-TIMEOUT-TIME" ()
     .nil)))))

def textTags20 : Bst (Unit) :=
 .node textTags18 k!"SELECTOR-FIELD-LENGTH" () textTags19

def textTags21 : Bst (Unit) :=
 .node textTags17 k!"FILTERING-DEBOUNCING" () textTags20

def textTags22 : Bst (Unit) :=
 (.node (.node (.node (.node (.node (.node .nil
      k!"OFFSET-CORRECTION-START" ()
      .nil)
     k!"PNC-PREPARE-SLEEP-TIMER" ()
     (.node .nil
      k!"POST-BUILD-VARIANT-USED" ()
      .nil))
    k!"PROVIDED-INTERFACE-TREF" ()
    (.node (.node .nil
      k!"PROVIDED-MODE-GROUP-REF" ()
      .nil)
     k!"PROVIDED-OUTER-PORT-REF" ()
     (.node .nil
      k!"REQUIRED-INTERFACE-TREF" ()
      .nil)))
   k!"REQUIRED-OUTER-PORT-REF" ()
   (.node (.node (.node .nil
      k!"RESISTANT-TO-CHANGED-SW" ()
      .nil)
     k!"ROOT-DATA-PROTOTYPE-REF" ()
     (.node .nil
      k!"ROUTING-ACTIVATION-TYPE" ()
      .nil))
    k!"SW-INTERPOLATION-METHOD" ()
    (.node (.node .nil
      k!"SW-RECORD-LAYOUT-V-AXIS" ()
      .nil)
     k!"SW-RECORD-LAYOUT-V-PROP" ()
     .nil)))
  k!"SYNC-FRAME-ID-COUNT-MAX" ()
  (.node (.node (.node (.node .nil
      k!"SYSTEM-SIGNAL-GROUP-REF" ()
      .nil)
     k!"TARGET-DATA-ELEMENT-REF" ()
     (.node .nil
      k!"TOLERATED-FAILED-CYCLES" ()
      .nil))
    k!"USE-AUTH-DATA-FRESHNESS" ()
    (.node (.node .nil
      k!"USE-FRESHNESS-TIMESTAMP" ()
      .nil)
     k!"VEHICLE-SYSTEM-INSTANCE" ()
     (.node .nil
      k!"ADMIT-WITHOUT-MESSAGE-ID" ()
      .nil)))
   k!"APPLICATION-ENDPOINT-REF" ()
   (.node (.node (.node .nil
      k!"AUTHENTICATION-PROPS-REF" ()
      .nil)
     k!"CONSUMED-EVENT-GROUP-REF" ()
     (.node .nil
      k!"CYCLE-TIME-MAIN-FUNCTION" ()
      .nil))
    k!"DATA-TRANSFORMATION-KIND" ()
    (.node (.node .nil
      k!"DISABLE-END-TO-END-CHECK" ()
      .nil)
     k!"DO-IP-SOURCE-ADDRESS-REF" ()
     .nil))))
 k!"DO-IP-TARGET-ADDRESS-REF" ()
 (.node (.node (.node (.node (.node .nil
      k!"EVENT-GROUP-CONTROL-TYPE" ()
      .nil)
     k!"EXTERN-OFFSET-CORRECTION" ()
     (.node .nil
      k!"FIRST-DATA-PROTOTYPE-REF" ()
      .nil))
    k!"IP-ADDRESS-PREFIX-LENGTH" ()
    (.node (.node .nil
      k!"MC-DATA-INSTANCE-VAR-REF" ()
      .nil)
     k!"NM-SYNCHRONIZING-NETWORK" ()
     (.node .nil
      k!"PDU-COLLECTION-SEMANTICS" ()
      .nil)))
   k!"POST-BUILD-VARIANT-VALUE" ()
   (.node (.node (.node .nil
      k!"RAM-BLOCK-STATUS-CONTROL" ()
      .nil)
     k!"RX-SECURITY-VERIFICATION" ()
     (.node .nil
      k!"SUPPORTED-CONFIG-VARIANT" ()
      .nil))
    k!"SW-RECORD-LAYOUT-V-INDEX" ()
    (.node (.node .nil
      k!"TRANCEIVER-STANDBY-DELAY" ()
      .nil)
     k!"VALUE-AXIS-DATA-TYPE-REF" ()
     .nil)))
  k!"APPLICATION-DATA-TYPE-REF" ()
  (.node (.node (.node (.node .nil
      k!"ARBITRARY-ADDRESS-CAPABLE" ()
      .nil)
     k!"BUILD-ACTION-MANIFEST-REF" ()
     (.node .nil
      k!"COMMUNICATION-CLUSTER-REF" ()
      .nil))
    k!"DIAGNOSTIC-CONNECTION-REF" ()
    (.node (.node .nil
      k!"FRESHNESS-VALUE-TX-LENGTH" ()
      .nil)
     k!"LAST-EGRESS-SCHEDULER-REF" ()
     (.node .nil
      k!"MAXIMUM-TRANSMISSION-UNIT" ()
      .nil)))
   k!"NM-CAR-WAKE-UP-RX-ENABLED" ()
   (.node (.node (.node .nil
      k!"NM-NODE-DETECTION-ENABLED" ()
      .nil)
     k!"NM-REPEAT-MSG-IND-ENABLED" ()
     (.node .nil
      k!"ROOT-DATA-PROTOTYPE-IN-CS" ()
      .nil))
    k!"RPT-SERVICE-POINT-PRE-REF" ()
    (.node (.node .nil
      k!"SCHEDULER-NAME-PREFIX-REF" ()
      .nil)
     k!"SECOND-DATA-PROTOTYPE-REF" ()
     .nil)))))

def textTags23 : Bst (Unit) :=
 (.node (.node (.node (.node (.node (.node .nil
      k!"SOFTWARE-COMPOSITION-TREF" ()
      .nil)
     k!"SW-RECORD-LAYOUT-GROUP-TO" ()
     (.node .nil
      k!"SWC-MODE-SWITCH-EVENT-REF" ()
      .nil))
    k!"TARGET-DATA-PROTOTYPE-REF" ()
    (.node (.node .nil
      k!"ALLOW-DYNAMIC-L-SDU-LENGTH" ()
      .nil)
     k!"AUTH-DATA-FRESHNESS-LENGTH" ()
     (.node .nil
      k!"AVERAGE-MEMORY-CONSUMPTION" ()
      .nil)))
   k!"CHANNEL-SYNCHRONOUS-WAKEUP" ()
   (.node (.node (.node .nil
      k!"CONSTANT-VALUE-MAPPING-REF" ()
      .nil)
     k!"CONTEXT-DATA-PROTOTYPE-REF" ()
     (.node .nil
      k!"CONTEXT-PORT-PROTOTYPE-REF" ()
      .nil))
    k!"DYNAMIC-ARRAY-SIZE-PROFILE" ()
    (.node (.node .nil
      k!"FUNCTION-PROTOTYPE-EMITTER" ()
      .nil)
     k!"HANDLE-OUT-OF-RANGE-STATUS" ()
     .nil)))
  k!"KEY-SLOT-USED-FOR-START-UP" ()
  (.node (.node (.node (.node .nil
      k!"MAXIMUM-MEMORY-CONSUMPTION" ()
      .nil)
     k!"MINIMUM-MEMORY-CONSUMPTION" ()
     (.node .nil
      k!"MODE-DECLARATION-GROUP-REF" ()
      .nil))
    k!"NM-IMMEDIATE-NM-CYCLE-TIME" ()
    (.node (.node .nil
      k!"PAYLOAD-PREAMBLE-INDICATOR" ()
      .nil)
     k!"POST-BUILD-VARIANT-SUPPORT" ()
     (.node .nil
      k!"REPRESENTED-PORT-GROUP-REF" ()
      .nil)))
   k!"RESET-TO-DEFAULT-SUPPORTED" ()
   (.node (.node (.node .nil
      k!"RPT-SERVICE-POINT-POST-REF" ()
      .nil)
     k!"RUNTIME-PORT-CONFIGURATION" ()
     (.node .nil
      k!"SWC-MAPPING-CONSTRAINT-REF" ()
      .nil))
    k!"TARGET-RUNNABLE-ENTITY-REF" ()
    (.node (.node .nil
      k!"TARGET-VARIABLE-ACCESS-REF" ()
      .nil)
     k!"TIME-VALUE-VARIATION-POINT" ()
     .nil))))
 k!"TP-ADDRESS-EXTENSION-VALUE" ()
 (.node (.node (.node (.node (.node .nil
      k!"UPPER-HEADER-BITS-TO-SHIFT" ()
      .nil)
     k!"USE-AS-CRYPTOGRAPHIC-I-PDU" ()
     (.node .nil
      k!"USES-END-TO-END-PROTECTION" ()
      .nil))
    k!"WAKE-UP-OVER-BUS-SUPPORTED" ()
    (.node (.node .nil
      k!"CAN-BE-INVOKED-CONCURRENTLY" ()
      .nil)
     k!"CLEAR-FROM-VALID-TO-INVALID" ()
     (.node .nil
      k!"COMMUNICATION-CONNECTOR-REF" ()
      .nil)))
   k!"FLOAT-VALUE-VARIATION-POINT" ()
   (.node (.node (.node .nil
      k!"MAX-NO-NEW-OR-REPEATED-DATA" ()
      .nil)
     k!"NM-BUSLOAD-REDUCTION-ACTIVE" ()
     (.node .nil
      k!"NM-REMOTE-SLEEP-IND-ENABLED" ()
      .nil))
    k!"NM-STATE-CHANGE-IND-ENABLED" ()
    (.node (.node .nil
      k!"POST-BUILD-VALUE-ACCESS-REF" ()
      .nil)
     k!"SERVER-ARGUMENT-IMPL-POLICY" ()
     .nil)))
  k!"SOFTWARE-MEMORY-SECTION-REF" ()
  (.node (.node (.node (.node .nil
      k!"SW-RECORD-LAYOUT-GROUP-AXIS" ()
      .nil)
     k!"SW-RECORD-LAYOUT-GROUP-FROM" ()
     (.node .nil
      k!"SW-RECORD-LAYOUT-GROUP-STEP" ()
      .nil))
    k!"TARGET-DATA-PROTOTYPE-IN-CS" ()
    (.node (.node .nil
      k!"TARGET-MODE-DECLARATION-REF" ()
      .nil)
     k!"TRANSIT-TO-INVALID-EXTENDED" ()
     (.node .nil
      k!"CAN-ENTER-EXCLUSIVE-AREA-REF" ()
      .nil)))
   k!"CLIENT-SERVICE-MAJOR-VERSION" ()
   (.node (.node (.node .nil
      k!"CLIENT-SERVICE-MINOR-VERSION" ()
      .nil)
     k!"COMPONENT-IMPLEMENTATION-REF" ()
     (.node .nil
      k!"CONFIG-ELEMENT-DEF-LOCAL-REF" ()
      .nil))
    k!"CONTEXT-ATOMIC-COMPONENT-REF" ()
    (.node (.node .nil
      k!"CONTEXT-DATA-PROTOTYPE-IN-CS" ()
      .nil)
     k!"CONTEXT-ROOT-COMPOSITION-REF" ()
     .nil)))))

def textTags24 : Bst (Unit) :=
 .node textTags22 k!"SELECTOR-FIELD-BYTE-ORDER" () textTags23

def textTags25 : Bst (Unit) :=
 (.node (.node (.node (.node (.node (.node .nil
      k!"INHIBITING-SECONDARY-FID-REF" ()
      .nil)
     k!"MINISLOT-ACTION-POINT-OFFSET" ()
     (.node .nil
      k!"NM-BUSLOAD-REDUCTION-ENABLED" ()
      .nil))
    k!"NM-IMMEDIATE-RESTART-ENABLED" ()
    (.node (.node .nil
      k!"NM-PDU-RX-INDICATION-ENABLED" ()
      .nil)
     k!"REQUIRES-SYMBOLIC-NAME-VALUE" ()
     (.node .nil
      k!"SECONDARY-FRESHNESS-VALUE-ID" ()
      .nil)))
   k!"SERVER-SERVICE-MAJOR-VERSION" ()
   (.node (.node (.node .nil
      k!"SERVER-SERVICE-MINOR-VERSION" ()
      .nil)
     k!"SW-RECORD-LAYOUT-GROUP-INDEX" ()
     (.node .nil
      k!"AUTHENTICATION-BUILD-ATTEMPTS" ()
      .nil))
    k!"BOOLEAN-VALUE-VARIATION-POINT" ()
    (.node (.node .nil
      k!"CONFIG-ELEMENT-DEF-GLOBAL-REF" ()
      .nil)
     k!"IMPLEMENTATION-CONFIG-VARIANT" ()
     .nil)))
  k!"INTEGER-VALUE-VARIATION-POINT" ()
  (.node (.node (.node (.node .nil
      k!"NM-IMMEDIATE-NM-TRANSMISSIONS" ()
      .nil)
     k!"PROVIDED-SERVICE-INSTANCE-REF" ()
     (.node .nil
      k!"RECOMMENDED-CONFIGURATION-REF" ()
      .nil))
    k!"SECTION-INITIALIZATION-POLICY" ()
    (.node (.node .nil
      k!"SELECTOR-FIELD-START-POSITION" ()
      .nil)
     k!"SERVICE-REQUEST-CALLBACK-TYPE" ()
     (.node .nil
      k!"TARGET-PROVIDED-OPERATION-REF" ()
      .nil)))
   k!"TARGET-REQUIRED-OPERATION-REF" ()
   (.node (.node (.node .nil
      k!"APPLICATION-RECORD-ELEMENT-REF" ()
      .nil)
     k!"ASSOCIATED-COM-I-PDU-GROUP-REF" ()
     (.node .nil
      k!"BITFIELD-TEXT-TABLE-MASK-FIRST" ()
      .nil))
    k!"COM-CONFIGURATION-GW-TIME-BASE" ()
    (.node (.node .nil
      k!"COM-CONFIGURATION-RX-TIME-BASE" ()
      .nil)
     k!"COM-CONFIGURATION-TX-TIME-BASE" ()
     .nil))))
 k!"FREEZE-CURRENT-STATE-SUPPORTED" ()
 (.node (.node (.node (.node (.node .nil
      k!"FUNCTION-POINTER-SIGNATURE-REF" ()
      .nil)
     k!"HANDLE-TERMINATION-AND-RESTART" ()
     (.node .nil
      k!"INITIAL-REPETITIONS-BASE-DELAY" ()
      .nil))
    k!"MAXIMUM-DYNAMIC-PAYLOAD-LENGTH" ()
    (.node (.node .nil
      k!"NM-BUS-SYNCHRONIZATION-ENABLED" ()
      .nil)
     k!"PDU-COLLECTION-MAX-BUFFER-SIZE" ()
     (.node .nil
      k!"RATE-BASED-MONITORED-EVENT-REF" ()
      .nil)))
   k!"RUNS-INSIDE-EXCLUSIVE-AREA-REF" ()
   (.node (.node (.node .nil
      k!"SW-GENERIC-AXIS-PARAM-TYPE-REF" ()
      .nil)
     k!"TRANSFORMING-SYSTEM-SIGNAL-REF" ()
     (.node .nil
      k!"UPDATE-INDICATION-BIT-POSITION" ()
      .nil))
    k!"VENDOR-SPECIFIC-MODULE-DEF-REF" ()
    (.node (.node .nil
      k!"ASSOCIATED-PDUR-I-PDU-GROUP-REF" ()
      .nil)
     k!"BITFIELD-TEXT-TABLE-MASK-SECOND" ()
     .nil)))
  k!"CONTEXT-COMPONENT-PROTOTYPE-REF" ()
  (.node (.node (.node (.node .nil
      k!"FRESHNESS-COUNTER-SYNC-ATTEMPTS" ()
      .nil)
     k!"IS-STRUCT-WITH-OPTIONAL-ELEMENT" ()
     (.node .nil
      k!"NM-REMOTE-SLEEP-INDICATION-TIME" ()
      .nil))
    k!"NUMERICAL-VALUE-VARIATION-POINT" ()
    (.node (.node .nil
      k!"POST-BUILD-VARIANT-MULTIPLICITY" ()
      .nil)
     k!"PRECONFIGURED-CONFIGURATION-REF" ()
     (.node .nil
      k!"SHORT-TERM-ADJUSTMENT-SUPPORTED" ()
      .nil)))
   k!"SUPPORTS-MULTIPLE-INSTANTIATION" ()
   (.node (.node (.node .nil
      k!"SW-SYSTEMCONSTANT-VALUE-SET-REF" ()
      .nil)
     k!"TARGET-DATA-PROTOTYPE-GROUP-REF" ()
     (.node .nil
      k!"WAKE-UP-BY-CONTROLLER-SUPPORTED" ()
      .nil))
    k!"ADDITIONAL-NATIVE-TYPE-QUALIFIER" ()
    (.node (.node .nil
      k!"ADDRESS-CONFIGURATION-CAPABILITY" ()
      .nil)
     k!"CONTROL-CONSUMED-EVENT-GROUP-REF" ()
     .nil)))))

def textTags26 : Bst (Unit) :=
 (.node (.node (.node (.node (.node (.node .nil
      k!"DESTINATION-URI-NESTING-CONTRACT" ()
      .nil)
     k!"DISABLE-END-TO-END-STATE-MACHINE" ()
     (.node .nil
      k!"END-TO-END-CALL-RESPONSE-TIMEOUT" ()
      .nil))
    k!"ETH-SWITCH-PORT-GROUP-DERIVATION" ()
    (.node (.node .nil
      k!"EXCLUSIVE-AREA-NESTING-ORDER-REF" ()
      .nil)
     k!"MEMORY-ALLOCATION-KEYWORD-POLICY" ()
     (.node .nil
      k!"MODE-DECLARATION-MAPPING-SET-REF" ()
      .nil)))
   k!"NETWORK-MANAGEMENT-VECTOR-LENGTH" ()
   (.node (.node (.node .nil
      k!"NM-SYNCHRONIZATION-POINT-ENABLED" ()
      .nil)
     k!"PROVIDED-REQUIRED-INTERFACE-TREF" ()
     (.node .nil
      k!"RUNTIME-IP-ADDRESS-CONFIGURATION" ()
      .nil))
    k!"TARGET-RUNNABLE-ENTITY-GROUP-REF" ()
    (.node (.node .nil
      k!"USE-AUTO-VALIDATION-AT-SHUT-DOWN" ()
      .nil)
     k!"BSW-INTERNAL-TRIGGERING-POINT-REF" ()
     .nil)))
  k!"IMPLEMENTATION-RECORD-ELEMENT-REF" ()
  (.node (.node (.node (.node .nil
      k!"MAX-NUMBER-OF-TIME-QUANTA-PER-BIT" ()
      .nil)
     k!"MIN-NUMBER-OF-TIME-QUANTA-PER-BIT" ()
     (.node .nil
      k!"ROOT-PARAMETER-DATA-PROTOTYPE-REF" ()
      .nil))
    k!"SUPPORTS-ASYNCHRONOUS-MODE-SWITCH" ()
    (.node (.node .nil
      k!"SYMBOL-WINDOW-ACTION-POINT-OFFSET" ()
      .nil)
     k!"USED-IMPLEMENTATION-DATA-TYPE-REF" ()
     (.node .nil
      k!"ASYNCHRONOUS-SERVER-CALL-POINT-REF" ()
      .nil)))
   k!"AUTH-DATA-FRESHNESS-START-POSITION" ()
   (.node (.node (.node .nil
      k!"CONTAINED-I-SIGNAL-I-PDU-GROUP-REF" ()
      .nil)
     k!"CONTEXT-MODE-DECLARATION-GROUP-REF" ()
     (.node .nil
      k!"CONTEXT-SW-COMPONENT-PROTOTYPE-REF" ()
      .nil))
    k!"MAX-TRCV-DELAY-COMPENSATION-OFFSET" ()
    (.node (.node .nil
      k!"MAX-WITHOUT-CLOCK-CORRECTION-FATAL" ()
      .nil)
     k!"MIN-TRCV-DELAY-COMPENSATION-OFFSET" ()
     .nil))))
 k!"TARGET-VARIABLE-DATA-PROTOTYPE-REF" ()
 (.node (.node (.node (.node (.node .nil
      k!"CALIBRATION-PARAMETER-VALUE-SET-REF" ()
      .nil)
     k!"CLIENT-PORT-FROM-CONNECTION-REQUEST" ()
     (.node .nil
      k!"E2E-PROFILE-COMPATIBILITY-PROPS-REF" ()
      .nil))
    k!"EXECUTE-DESPITE-DATA-UNAVAILABILITY" ()
    (.node (.node .nil
      k!"PRESTORED-FREEZEFRAME-STORED-IN-NVM" ()
      .nil)
     k!"VERIFICATION-STATUS-INDICATION-MODE" ()
     (.node .nil
      k!"ACTIVATION-REASON-REPRESENTATION-REF" ()
      .nil)))
   k!"ECUC-MODULE-CONFIGURATION-VALUES-REF" ()
   (.node (.node (.node .nil
      k!"MAX-WITHOUT-CLOCK-CORRECTION-PASSIVE" ()
      .nil)
     k!"MODE-DECLARATION-GROUP-PROTOTYPE-REF" ()
     (.node .nil
      k!"TRANSMISSION-START-SEQUENCE-DURATION" ()
      .nil))
    k!"E-2-E-PROFILE-COMPATIBILITY-PROPS-REF" ()
    (.node (.node .nil
      k!"MEASURABLE-SYSTEM-CONSTANT-VALUES-REF" ()
      .nil)
     k!"CLIENT-IP-ADDR-FROM-CONNECTION-REQUEST" ()
     .nil)))
  k!"COM-ENABLE-MDT-FOR-CYCLIC-TRANSMISSION" ()
  (.node (.node (.node (.node .nil
      k!"FRESHNESS-TIMESTAMP-TIME-PERIOD-FACTOR" ()
      .nil)
     k!"POSITIVE-INTEGER-VALUE-VARIATION-POINT" ()
     (.node .nil
      k!"SUPERVISED-ENTITY-CHECKPOINT-NEEDS-REF" ()
      .nil))
    k!"BITFIELD-TEXT-TABLE-MASK-PORT-PROTOTYPE" ()
    (.node (.node .nil
      k!"FIRST-TO-SECOND-DATA-TRANSFORMATION-REF" ()
      .nil)
     k!"SECOND-TO-FIRST-DATA-TRANSFORMATION-REF" ()
     .nil))
   k!"UNLIMITED-INTEGER-VALUE-VARIATION-POINT" ()
   (.node (.node (.node .nil
      k!"POST-BUILD-VARIANT-CRITERION-VALUE-SET-REF" ()
      .nil)
     k!"USED-LIFE-CYCLE-STATE-DEFINITION-GROUP-REF" ()
     (.node .nil
      k!"BITFIELD-TEXT-TABLE-MASK-NV-BLOCK-DESCRIPTOR" ()
      .nil))
    k!"CONTEXT-MODE-DECLARATION-GROUP-PROTOTYPE-REF" ()
    (.node (.node .nil
      k!"SOMEIP-SD-SERVER-SERVICE-INSTANCE-CONFIG-REF" ()
      .nil)
     k!"ASSOCIATED-CONSUMED-PROVIDED-SERVICE-INSTANCE-GROUP-REF" ()
     .nil)))))

def textTags27 : Bst (Unit) :=
 .node textTags25 k!"CONTROL-PROVIDED-EVENT-GROUP-REF" () textTags26

def textTags28 : Bst (Unit) :=
 .node textTags24 k!"IMPLEMENTATION-DATA-TYPE-REF" () textTags27

def textTags29 : Bst (Unit) :=
 .node textTags21 k!"NM-PASSIVE-MODE-ENABLED" () textTags28

def textTags30 : Bst (Unit) :=
 .node textTags14 k!"BASE-TYPE-ENCODING" () textTags29

/-- The tags of the elements whose text is read by some method. -/
def textTags : Bst (Unit) := textTags30

/-- The methods that read the text of the element they are called with. -/
def textBodies : List Key :=
  [k!"getCompuConstContent_CompuConstFormulaContent",
   k!"getCompuConstContent_CompuConstNumericContent",
   k!"getCompuConstContent_CompuConstTextContent",
   k!"getEcucDestinationUriRefs_EcucDestinationUriDefRefType",
   k!"getLOverviewParagraphs_LOverviewParagraph",
   k!"getLParagraphs_LParagraph",
   k!"getMultiLanguageVerbatim_LVerbatim",
   k!"readEmphasisText_EmphasisText",
   k!"readIndexEntry_IndexEntry",
   k!"readLLongName_LLongName",
   k!"readLOverviewParagraph_LOverviewParagraph",
   k!"readSd_Sd",
   k!"readSdf_Sdf",
   k!"readTt_Tt",
   k!"readVariationPointProxy_BooleanValueVariationPoint",
   k!"readVariationPointProxy_FloatValueVariationPoint",
   k!"readVariationPointProxy_IntegerValueVariationPoint",
   k!"readVariationPointProxy_LimitValueVariationPoint",
   k!"readVariationPointProxy_NumericalValueVariationPoint",
   k!"readVariationPointProxy_PositiveIntegerValueVariationPoint",
   k!"readVariationPointProxy_TimeValueValueVariationPoint",
   k!"readVariationPointProxy_UnlimitedIntegerValueVariationPoint"]

end Verif.Gen
