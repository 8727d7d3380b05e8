import Verif.Model.Bst
import Verif.Model.Key
/-! Generated by `tools/gen_names.py`; checked in `Verif/Lemmas/TagsTable.lean`. -/
namespace Verif.Gen
open Verif

def nameTable00 : Bst (List Key) :=
 (.node (.node (.node (.node (.node .nil
     k!"e" [k!"E"]
     .nil)
    k!"l" [k!"L"]
    .nil)
   k!"v" [k!"V"]
   (.node (.node .nil
     k!"x" [k!"X"]
     .nil)
    k!"_v" [k!"V"]
    .nil))
  k!"id" [k!"ID"]
  (.node (.node (.node .nil
     k!"ie" [k!"IE"]
     .nil)
    k!"l1" [k!"L-1"]
    .nil)
   k!"l2" [k!"L-2"]
   (.node (.node .nil
     k!"l4" [k!"L-4"]
     .nil)
    k!"ps" [k!"P"]
    .nil)))
 k!"sd" [k!"SD"]
 (.node (.node (.node (.node .nil
     k!"si" [k!"SI"]
     .nil)
    k!"tt" [k!"TT"]
    .nil)
   k!"vf" [k!"VF"]
   (.node (.node .nil
     k!"vt" [k!"VT"]
     .nil)
    k!"arg" [k!"ARG"]
    .nil))
  k!"bit" [k!"BIT"]
  (.node (.node (.node .nil
     k!"gid" [k!"GID"]
     .nil)
    k!"l2s" [k!"L-2"]
    .nil)
   k!"l5s" [k!"L-5"]
   (.node (.node .nil
     k!"max" [k!"MAX"]
     .nil)
    k!"min" [k!"MIN"]
    .nil))))

def nameTable01 : Bst (List Key) :=
 (.node (.node (.node (.node (.node .nil
     k!"sub" [k!"SUB"]
     .nil)
    k!"sup" [k!"SUP"]
    .nil)
   k!"ttl" [k!"TTL"]
   (.node (.node .nil
     k!"vfs" [k!"VF"]
     .nil)
    k!"vtf" [k!"VTF"]
    .nil))
  k!"base" [k!"BASE"]
  (.node (.node (.node .nil
     k!"date" [k!"DATE"]
     .nil)
    k!"desc" [k!"DESC"]
    .nil)
   k!"dest" [k!"DEST"]
   (.node (.node .nil
     k!"l10s" [k!"L-10"]
     .nil)
    k!"mask" [k!"MASK"]
    .nil)))
 k!"name" [k!"NAME"]
 (.node (.node (.node (.node .nil
     k!"note" [k!"NOTE"]
     .nil)
    k!"pdus" [k!"PDUS"]
    .nil)
   k!"pwmL" [k!"PWM-L"]
   (.node (.node .nil
     k!"pwmO" [k!"PWM-O"]
     .nil)
    k!"pwmS" [k!"PWM-S"]
    .nil))
  k!"role" [k!"ROLE"]
  (.node (.node (.node .nil
     k!"rule" [k!"RULE"]
     .nil)
    k!"sdgs" [k!"SDG"]
    .nil)
   k!"size" [k!"SIZE"]
   (.node .nil
    k!"text" [k!"TEXT"]
    .nil))))

def nameTable02 : Bst (List Key) :=
 .node nameTable00 k!"sdg" [k!"SDG"] nameTable01

def nameTable03 : Bst (List Key) :=
 (.node (.node (.node (.node (.node .nil
     k!"uuid" [k!"UUID"]
     .nil)
    k!"vlan" [k!"VLAN"]
    .nil)
   k!"color" [k!"COLOR"]
   (.node (.node .nil
     k!"cycle" [k!"CYCLE"]
     .nil)
    k!"delay" [k!"DELAY"]
    .nil))
  k!"float" [k!"FLOAT"]
  (.node (.node (.node .nil
     k!"ident" [k!"IDENT"]
     .nil)
    k!"index" [k!"INDEX"]
    .nil)
   k!"input" [k!"INPUT"]
   (.node (.node .nil
     k!"items" [k!"ITEM"]
     .nil)
    k!"keyId" [k!"KEY-ID"]
    .nil)))
 k!"label" [k!"LABEL"]
 (.node (.node (.node (.node .nil
     k!"level" [k!"LEVEL"]
     .nil)
    k!"lists" [k!"LIST"]
    .nil)
   k!"p2Max" [k!"P-2-MAX"]
   (.node (.node .nil
     k!"ports" [k!"PORTS"]
     .nil)
    k!"scope" [k!"SCOPE"]
    .nil))
  k!"stMin" [k!"ST-MIN"]
  (.node (.node (.node .nil
     k!"state" [k!"STATE"]
     .nil)
    k!"tagId" [k!"TAG-ID"]
    .nil)
   k!"trace" [k!"TRACE"]
   (.node .nil
    k!"value" [k!"VALUE"]
    .nil))))

def nameTable04 : Bst (List Key) :=
 (.node (.node (.node (.node (.node .nil
     k!"change" [k!"CHANGE"]
     .nil)
    k!"dataId" [k!"DATA-ID"]
    .nil)
   k!"domain" [k!"DOMAIN"]
   (.node (.node .nil
     k!"ecuRef" [k!"ECU-REF"]
     .nil)
    k!"events" [k!"EVENTS"]
    .nil))
  k!"fields" [k!"FIELDS"]
  (.node (.node (.node .nil
     k!"filter" [k!"FILTER"]
     .nil)
    k!"length" [k!"LENGTH"]
    .nil)
   k!"offset" [k!"OFFSET"]
   (.node (.node .nil
     k!"origin" [k!"ORIGIN"]
     .nil)
    k!"pduRef" [k!"PDU-REF"]
    .nil)))
 k!"period" [k!"PERIOD"]
 (.node (.node (.node (.node .nil
     k!"pgwide" [k!"PGWIDE"]
     .nil)
    k!"prefix" [k!"PREFIX"]
    .nil)
   k!"reason" [k!"REASON"]
   (.node (.node .nil
     k!"remark" [k!"REMARK"]
     .nil)
    k!"slotID" [k!"SLOT-ID"]
    .nil))
  k!"symbol" [k!"SYMBOL"]
  (.node (.node (.node .nil
     k!"taType" [k!"TA-TYPE"]
     .nil)
    k!"tpEcus" [k!"TP-ECUS"]
    .nil)
   k!"usages" [k!"USAGE"]
   (.node .nil
    k!"vendor" [k!"VENDOR"]
    .nil))))

def nameTable05 : Bst (List Key) :=
 .node nameTable03 k!"PduRef" [k!"PDU-REF"] nameTable04

def nameTable06 : Bst (List Key) :=
 .node nameTable02 k!"type" [k!"TYPE"] nameTable05

def nameTable07 : Bst (List Key) :=
 (.node (.node (.node (.node (.node .nil
     k!"baseRef" [k!"BASE-REF", k!"BASE"]
     .nil)
    k!"cddType" [k!"CDD-TYPE"]
    .nil)
   k!"choices" [k!"CHOICES"]
   (.node (.node .nil
     k!"comment" [k!"COMMENT"]
     .nil)
    k!"cseCode" [k!"CSE-CODE"]
    .nil))
  k!"dataIds" [k!"DATA-ID"]
  (.node (.node (.node .nil
     k!"dataRef" [k!"DATA-REF"]
     .nil)
    k!"defList" [k!"DEF-LIST"]
    .nil)
   k!"def_doc" [k!"DEF"]
   (.node (.node .nil
     k!"dtcKind" [k!"DTC-KIND"]
     .nil)
    k!"element" [k!"ELEMENT", k!"ELEMENTS"]
    .nil)))
 k!"figures" [k!"FIGURE"]
 (.node (.node (.node (.node .nil
     k!"formula" [k!"FORMULA"]
     .nil)
    k!"graphic" [k!"GRAPHIC"]
    .nil)
   k!"iPduRef" [k!"I-PDU-REF"]
   (.node (.node .nil
     k!"inPlace" [k!"IN-PLACE"]
     .nil)
    k!"linkers" [k!"LINKER"]
    .nil))
  k!"massExp" [k!"MASS-EXP"]
  (.node (.node (.node .nil
     k!"maxDiff" [k!"MAX-DIFF"]
     .nil)
    k!"maxPwmL" [k!"MAX-PWM-L"]
    .nil)
   k!"maxPwmO" [k!"MAX-PWM-O"]
   (.node (.node .nil
     k!"maxPwmS" [k!"MAX-PWM-S"]
     .nil)
    k!"minPwmL" [k!"MIN-PWM-L"]
    .nil))))

def nameTable08 : Bst (List Key) :=
 (.node (.node (.node (.node (.node .nil
     k!"minPwmS" [k!"MIN-PWM-S"]
     .nil)
    k!"nmNodes" [k!"NM-NODES"]
    .nil)
   k!"options" [k!"OPTIONS", k!"OPTION"]
   (.node (.node .nil
     k!"portRef" [k!"PORT-REF"]
     .nil)
    k!"propSeg" [k!"PROP-SEG"]
    .nil))
  k!"runMode" [k!"RUN-MODE"]
  (.node (.node (.node .nil
     k!"texMath" [k!"TEX-MATH"]
     .nil)
    k!"timeExp" [k!"TIME-EXP"]
    .nil)
   k!"timeout" [k!"TIMEOUT"]
   (.node (.node .nil
     k!"tpNodes" [k!"TP-NODES"]
     .nil)
    k!"trigger" [k!"TRIGGER", k!"TRIGGER-IREF"]
    .nil)))
 k!"unitRef" [k!"UNIT-REF"]
 (.node (.node (.node (.node .nil
     k!"useCase" [k!"USE-CASE"]
     .nil)
    k!"version" [k!"VERSION"]
    .nil)
   k!"vlanRef" [k!"VLAN-REF"]
   (.node (.node .nil
     k!"abbrName" [k!"ABBR-NAME"]
     .nil)
    k!"baudrate" [k!"BAUDRATE"]
    .nil))
  k!"callType" [k!"CALL-TYPE"]
  (.node (.node (.node .nil
     k!"category" [k!"CATEGORY"]
     .nil)
    k!"chapters" [k!"CHAPTER"]
    .nil)
   k!"computed" [k!"COMPUTED"]
   (.node .nil
    k!"contexts" [k!"CONTEXTS"]
    .nil))))

def nameTable09 : Bst (List Key) :=
 .node nameTable07 k!"minPwmO" [k!"MIN-PWM-O"] nameTable08

def nameTable10 : Bst (List Key) :=
 (.node (.node (.node (.node (.node .nil
     k!"defItems" [k!"DEF-ITEM"]
     .nil)
    k!"ecucCond" [k!"ECUC-COND"]
    .nil)
   k!"elements" [k!"ELEMENTS"]
   (.node (.node .nil
     k!"entities" [k!"ENTITYS"]
     .nil)
    k!"entryRef" [k!"ENTRY-REF"]
    .nil))
  k!"filename" [k!"FILENAME"]
  (.node (.node (.node .nil
     k!"fragment" [k!"FRAGMENT"]
     .nil)
    k!"frameRef" [k!"FRAME-REF"]
    .nil)
   k!"function" [k!"FUNCTION"]
   (.node (.node .nil
     k!"headerId" [k!"HEADER-ID"]
     .nil)
    k!"hopCount" [k!"HOP-COUNT"]
    .nil)))
 k!"isGlobal" [k!"IS-GLOBAL"]
 (.node (.node (.node (.node .nil
     k!"issuedBy" [k!"ISSUED-BY"]
     .nil)
    k!"keywords" [k!"KEYWORD"]
    .nil)
   k!"language" [k!"LANGUAGE"]
   (.node (.node .nil
     k!"latestTX" [k!"LATEST-TX"]
     .nil)
    k!"literals" [k!"LITERALS"]
    .nil))
  k!"longName" [k!"LONG-NAME"]
  (.node (.node (.node .nil
     k!"maxValue" [k!"MAX-VALUE"]
     .nil)
    k!"minValue" [k!"MIN-VALUE"]
    .nil)
   k!"moduleId" [k!"MODULE-ID"]
   (.node .nil
    k!"monotony" [k!"MONOTONY"]
    .nil))))

def nameTable11 : Bst (List Key) :=
 (.node (.node (.node (.node (.node .nil
     k!"nmNodeId" [k!"NM-NODE-ID"]
     .nil)
    k!"nodeName" [k!"NODE-NAME"]
    .nil)
   k!"noteText" [k!"NOTE-TEXT"]
   (.node (.node .nil
     k!"noteType" [k!"NOTETYPE"]
     .nil)
    k!"p2Timing" [k!"P-2-TIMING"]
    .nil))
  k!"priority" [k!"PRIORITY"]
  (.node (.node (.node .nil
     k!"protocol" [k!"PROTOCOL"]
     .nil)
    k!"ramBlock" [k!"RAM-BLOCK"]
    .nil)
   k!"rangeMax" [k!"RANGE-MAX"]
   (.node (.node .nil
     k!"rangeMin" [k!"RANGE-MIN"]
     .nil)
    k!"readonly" [k!"READONLY"]
    .nil)))
 k!"romBlock" [k!"ROM-BLOCK"]
 (.node (.node (.node (.node .nil
     k!"rptReads" [k!"RPT-READS"]
     .nil)
    k!"stepSize" [k!"STEP-SIZE"]
    .nil)
   k!"timeBase" [k!"TIME-BASE"]
   (.node (.node .nil
     k!"timeSeg1" [k!"TIME-SEG1"]
     .nil)
    k!"timeSeg2" [k!"TIME-SEG2"]
    .nil))
  k!"tpSduRef" [k!"TP-SDU-REF"]
  (.node (.node (.node .nil
     k!"typeTRef" [k!"TYPE-TREF"]
     .nil)
    k!"validity" [k!"VALIDITY"]
    .nil)
   k!"valueRef" [k!"VALUE-REF", k!"VALUE-IREF"]
   (.node .nil
    k!"vendorId" [k!"VENDOR-ID"]
    .nil))))

def nameTable12 : Bst (List Key) :=
 .node nameTable10 k!"nmIfEcus" [k!"NM-IF-ECUS"] nameTable11

def nameTable13 : Bst (List Key) :=
 .node nameTable09 k!"dataIRef" [k!"DATA-IREF"] nameTable12

def nameTable14 : Bst (List Key) :=
 .node nameTable06 k!"address" [k!"ADDRESS"] nameTable13

def nameTable15 : Bst (List Key) :=
 (.node (.node (.node (.node (.node .nil
     k!"withAuto" [k!"WITH-AUTO"]
     .nil)
    k!"BaseCycle" [k!"BASE-CYCLE"]
    .nil)
   k!"DidNumber" [k!"DID-NUMBER"]
   (.node (.node .nil
     k!"RidNumber" [k!"RID-NUMBER"]
     .nil)
    k!"adminData" [k!"ADMIN-DATA"]
    .nil))
  k!"alignment" [k!"ALIGNMENT"]
  (.node (.node (.node .nil
     k!"arguments" [k!"ARGUMENTS", k!"ARGUMENTSS"]
     .nil)
    k!"arraySize" [k!"ARRAY-SIZE"]
    .nil)
   k!"baseCycle" [k!"BASE-CYCLE"]
   (.node (.node .nil
     k!"borTimeL1" [k!"BOR-TIME-L-1"]
     .nil)
    k!"borTimeL2" [k!"BOR-TIME-L-2"]
    .nil)))
 k!"channelId" [k!"CHANNEL-ID"]
 (.node (.node (.node (.node .nil
     k!"compilers" [k!"COMPILER"]
     .nil)
    k!"conflicts" [k!"CONFLICTS"]
    .nil)
   k!"crcOffset" [k!"CRC-OFFSET"]
   (.node (.node .nil
     k!"direction" [k!"DIRECTION"]
     .nil)
    k!"errorCode" [k!"ERROR-CODE"]
    .nil))
  k!"fifoDepth" [k!"FIFO-DEPTH"]
  (.node (.node (.node .nil
     k!"fifoRange" [k!"FLEXRAY-FIFO-RANGE"]
     .nil)
    k!"helpEntry" [k!"HELP-ENTRY", k!"HELPENTRY"]
    .nil)
   k!"hwPinRefs" [k!"HW-PIN-REF"]
   (.node (.node .nil
     k!"hwTypeRef" [k!"HW-TYPE-REF"]
     .nil)
    k!"initValue" [k!"INIT-VALUE"]
    .nil))))

def nameTable16 : Bst (List Key) :=
 (.node (.node (.node (.node (.node .nil
     k!"isDefault" [k!"IS-DEFAULT"]
     .nil)
    k!"isService" [k!"IS-SERVICE"]
    .nil)
   k!"itemLabel" [k!"ITEM-LABEL"]
   (.node (.node .nil
     k!"keySlotID" [k!"KEY-SLOT-ID"]
     .nil)
    k!"lGraphics" [k!"L-GRAPHIC"]
    .nil))
  k!"lengthExp" [k!"LENGTH-EXP"]
  (.node (.node (.node .nil
     k!"limitKind" [k!"LIMIT-KIND"]
     .nil)
    k!"maxFcWait" [k!"MAX-FC-WAIT"]
    .nil)
   k!"maxLength" [k!"MAX-LENGTH"]
   (.node (.node .nil
     k!"mcSupport" [k!"MC-SUPPORT"]
     .nil)
    k!"messageId" [k!"MESSAGE-ID"]
    .nil)))
 k!"minLength" [k!"MIN-LENGTH"]
 (.node (.node (.node (.node .nil
     k!"modeGroup" [k!"MODE-GROUP"]
     .nil)
    k!"modeIRefs" [k!"MODE-IREF"]
    .nil)
   k!"msgIdMask" [k!"MSG-ID-MASK"]
   (.node (.node .nil
     k!"nDataSets" [k!"N-DATA-SETS"]
     .nil)
    k!"prefixRef" [k!"PREFIX-REF"]
    .nil))
  k!"pulseTest" [k!"PULSE-TEST"]
  (.node (.node (.node .nil
     k!"rationale" [k!"RATIONALE"]
     .nil)
    k!"rptWrites" [k!"RPT-WRITES"]
    .nil)
   k!"serviceId" [k!"SERVICE-ID"]
   (.node .nil
    k!"signalFan" [k!"SIGNAL-FAN"]
    .nil))))

def nameTable17 : Bst (List Key) :=
 .node nameTable15 k!"instances" [k!"INSTANCES"] nameTable16

def nameTable18 : Bst (List Key) :=
 (.node (.node (.node (.node (.node .nil
     k!"swCarbDoc" [k!"SW-CARB-DOC"]
     .nil)
    k!"swSyscond" [k!"SW-SYSCOND"]
    .nil)
   k!"swVersion" [k!"SW-VERSION"]
   (.node (.node .nil
     k!"targetRef" [k!"TARGET-REF"]
     .nil)
    k!"tcpTpPort" [k!"TCP-TP-PORT"]
    .nil))
  k!"texRender" [k!"TEX-RENDER"]
  (.node (.node (.node .nil
     k!"timeoutAr" [k!"TIMEOUT-AR"]
     .nil)
    k!"timeoutAs" [k!"TIMEOUT-AS"]
    .nil)
   k!"timeoutBr" [k!"TIMEOUT-BR"]
   (.node (.node .nil
     k!"timeoutBs" [k!"TIMEOUT-BS"]
     .nil)
    k!"timeoutCr" [k!"TIMEOUT-CR"]
    .nil)))
 k!"timeoutCs" [k!"TIMEOUT-CS"]
 (.node (.node (.node (.node .nil
     k!"timestamp" [k!"T"]
     .nil)
    k!"tpAddress" [k!"TP-ADDRESS"]
    .nil)
   k!"traceRefs" [k!"TRACE-REF"]
   (.node (.node .nil
     k!"udpTpPort" [k!"UDP-TP-PORT"]
     .nil)
    k!"valueSpec" [k!"VALUE-SPEC"]
    .nil))
  k!"ackRequest" [k!"ACK-REQUEST"]
  (.node (.node (.node .nil
     k!"activation" [k!"ACTIVATION"]
     .nil)
    k!"allowBreak" [k!"ALLOWBREAK"]
    .nil)
   k!"arPackages" [k!"AR-PACKAGE"]
   (.node .nil
    k!"callPoints" [k!"CALL-POINTS"]
    .nil))))

def nameTable19 : Bst (List Key) :=
 (.node (.node (.node (.node (.node .nil
     k!"components" [k!"COMPONENTS"]
     .nil)
    k!"connectors" [k!"CONNECTORS"]
    .nil)
   k!"containers" [k!"CONTAINERS"]
   (.node (.node .nil
     k!"contextRef" [k!"CONTEXT-REF"]
     .nil)
    k!"currentExp" [k!"CURRENT-EXP"]
    .nil))
  k!"dataFilter" [k!"DATA-FILTER"]
  (.node (.node (.node .nil
     k!"dataIdMode" [k!"DATA-ID-MODE"]
     .nil)
    k!"dataLength" [k!"DATA-LENGTH"]
    .nil)
   k!"dataOffset" [k!"DATA-OFFSET"]
   (.node (.node .nil
     k!"dataPduRef" [k!"DATA-PDU-REF"]
     .nil)
    k!"derivation" [k!"DERIVATION"]
    .nil)))
 k!"doIpEntity" [k!"DO-IP-ENTITY"]
 (.node (.node (.node (.node .nil
     k!"expression" [k!"EXPRESSION"]
     .nil)
    k!"flatMapRef" [k!"FLAT-MAP-REF"]
    .nil)
   k!"heapUsages" [k!"HEAP-USAGES"]
   (.node (.node .nil
     k!"iSignalRef" [k!"I-SIGNAL-REF"]
     .nil)
    k!"identifier" [k!"IDENTIFIER"]
    .nil))
  k!"importance" [k!"IMPORTANCE"]
  (.node (.node (.node .nil
     k!"isRequired" [k!"IS-REQUIRED"]
     .nil)
    k!"keepAlives" [k!"KEEP-ALIVES"]
    .nil)
   k!"lcStateRef" [k!"LC-STATE-REF"]
   (.node .nil
    k!"lowerCanId" [k!"LOWER-CAN-ID"]
    .nil))))

def nameTable20 : Bst (List Key) :=
 .node nameTable18 k!"channelRef" [k!"CHANNEL-REF"] nameTable19

def nameTable21 : Bst (List Key) :=
 .node nameTable17 k!"sspOffset" [k!"SSP-OFFSET"] nameTable20

def nameTable22 : Bst (List Key) :=
 (.node (.node (.node (.node (.node .nil
     k!"mappingRef" [k!"MAPPING-REF"]
     .nil)
    k!"moduleRefs" [k!"MODULE-REF"]
    .nil)
   k!"msgIdMatch" [k!"MSG-ID-MATCH"]
   (.node (.node .nil
     k!"msrQueryP2" [k!"MSR-QUERY-P2"]
     .nil)
    k!"nRomBlocks" [k!"N-ROM-BLOCKS"]
    .nil))
  k!"nmIfEcuRef" [k!"NM-IF-ECU-REF"]
  (.node (.node (.node .nil
     k!"operations" [k!"OPERATIONS"]
     .nil)
    k!"packageRef" [k!"PACKAGE-REF"]
    .nil)
   k!"parameters" [k!"PARAMETERS"]
   (.node (.node .nil
     k!"payloadRef" [k!"PAYLOAD-REF"]
     .nil)
    k!"portGroups" [k!"PORT-GROUP"]
    .nil)))
 k!"portNumber" [k!"PORT-NUMBER"]
 (.node (.node (.node (.node .nil
     k!"readNvData" [k!"READ-NV-DATA"]
     .nil)
    k!"references" [k!"REFERENCES"]
    .nil)
   k!"returnType" [k!"RETURN-TYPE"]
   (.node (.node .nil
     k!"rptEventId" [k!"RPT-EVENT-ID"]
     .nil)
    k!"sdgCaption" [k!"SDG-CAPTION"]
    .nil))
  k!"senderIRef" [k!"SENDER-IREF"]
  (.node (.node (.node .nil
     k!"shortLabel" [k!"SHORT-LABEL"]
     .nil)
    k!"short_name" [k!"SHORT-NAME"]
    .nil)
   k!"soAdConfig" [k!"SO-AD-CONFIG"]
   (.node (.node .nil
     k!"staticPart" [k!"STATIC-PART"]
     .nil)
    k!"swMappings" [k!"SW-MAPPINGS"]
    .nil))))

def nameTable23 : Bst (List Key) :=
 (.node (.node (.node (.node (.node .nil
     k!"swVariable" [k!"SW-VARIABLE-REF-PROXY"]
     .nil)
    k!"targetIPdu" [k!"TARGET-I-PDU", k!"TARGET-I-PDU-REF"]
    .nil)
   k!"timeOffset" [k!"TIME-OFFSET"]
   (.node (.node .nil
     k!"timePeriod" [k!"TIME-PERIOD"]
     .nil)
    k!"tpChannels" [k!"TP-CHANNELS"]
    .nil))
  k!"triggerRef" [k!"TRIGGER", k!"TRIGGER-REF"]
  (.node (.node (.node .nil
     k!"updateKind" [k!"UPDATE-KIND"]
     .nil)
    k!"upperCanId" [k!"UPPER-CAN-ID"]
    .nil)
   k!"upperLimit" [k!"UPPER-LIMIT"]
   (.node (.node .nil
     k!"usedFidRef" [k!"USED-FID-REF"]
     .nil)
    k!"usedPimRef" [k!"USED-PIM-REF"]
    .nil)))
 k!"waitPoints" [k!"WAIT-POINT"]
 (.node (.node (.node (.node .nil
     k!"annotations" [k!"ANNOTATION"]
     .nil)
    k!"arParameter" [k!"AR-PARAMETER"]
    .nil)
   k!"autoCollect" [k!"AUTO-COLLECT"]
   (.node (.node .nil
     k!"baseTypeRef" [k!"BASE-TYPE-REF"]
     .nil)
    k!"behaviorRef" [k!"BEHAVIOR-REF"]
    .nil))
  k!"bindingTime" [k!"BINDING-TIME"]
  (.node (.node (.node .nil
     k!"bitPosition" [k!"BIT-POSITION"]
     .nil)
    k!"bulkNvBlock" [k!"BULK-NV-BLOCK"]
    .nil)
   k!"casRxLowMax" [k!"CAS-RX-LOW-MAX"]
   (.node .nil
    k!"channelMode" [k!"CHANNEL-MODE"]
    .nil))))

def nameTable24 : Bst (List Key) :=
 .node nameTable22 k!"swTestDesc" [k!"SW-TEST-DESC"] nameTable23

def nameTable25 : Bst (List Key) :=
 (.node (.node (.node (.node (.node .nil
     k!"compuScales" [k!"COMPU-SCALE"]
     .nil)
    k!"configClass" [k!"CONFIG-CLASS"]
    .nil)
   k!"constantRef" [k!"CONSTANT-REF"]
   (.node (.node .nil
     k!"constrLevel" [k!"CONSTR-LEVEL"]
     .nil)
    k!"description" [k!"DESCRIPTION"]
    .nil))
  k!"diagPduType" [k!"DIAG-PDU-TYPE"]
  (.node (.node (.node .nil
     k!"displayName" [k!"DISPLAY-NAME"]
     .nil)
    k!"dynamicPart" [k!"DYNAMIC-PART"]
    .nil)
   k!"ecuInstance" [k!"ECU-INSTANCE"]
   (.node (.node .nil
     k!"ecucQueries" [k!"ECUC-QUERY"]
     .nil)
    k!"elementRefs" [k!"ELEMENT-REF"]
    .nil)))
 k!"elementRole" [k!"ELEMENT-ROLE"]
 (.node (.node (.node (.node .nil
     k!"featureIRef" [k!"FEATURE-IREF"]
     .nil)
    k!"fixedLength" [k!"FIXED-LENGTH"]
    .nil)
   k!"frameLength" [k!"FRAME-LENGTH"]
   (.node (.node .nil
     k!"genericMath" [k!"GENERIC-MATH"]
     .nil)
    k!"hwPinGroups" [k!"HW-PIN-GROUP"]
    .nil))
  k!"iSignalRefs" [k!"I-SIGNAL-REF"]
  (.node (.node (.node .nil
     k!"iSignalType" [k!"I-SIGNAL-TYPE"]
     .nil)
    k!"indirectAPI" [k!"INDIRECT-API"]
    .nil)
   k!"ipv6Address" [k!"IPV-6-ADDRESS"]
   (.node .nil
    k!"isReentrant" [k!"IS-REENTRANT"]
    .nil))))

def nameTable26 : Bst (List Key) :=
 (.node (.node (.node (.node (.node .nil
     k!"lcObjectRef" [k!"LC-OBJECT-REF"]
     .nil)
    k!"linChecksum" [k!"LIN-CHECKSUM"]
    .nil)
   k!"listenNoise" [k!"LISTEN-NOISE"]
   (.node (.node .nil
     k!"maxCommMode" [k!"MAX-COMM-MODE"]
     .nil)
    k!"maxGradient" [k!"MAX-GRADIENT"]
    .nil))
  k!"modeMapping" [k!"MODE-MAPPING"]
  (.node (.node (.node .nil
     k!"nmChannelId" [k!"NM-CHANNEL-ID"]
     .nil)
    k!"periodBegin" [k!"PERIOD-BEGIN"]
    .nil)
   k!"physConstrs" [k!"PHYS-CONSTRS"]
   (.node (.node .nil
     k!"pnResetTime" [k!"PN-RESET-TIME"]
     .nil)
    k!"portAddress" [k!"PORT-ADDRESS"]
    .nil)))
 k!"profileName" [k!"PROFILE-NAME"]
 (.node (.node (.node (.node .nil
     k!"queueLength" [k!"QUEUE-LENGTH"]
     .nil)
    k!"reliability" [k!"RELIABILITY"]
    .nil)
   k!"replaceWith" [k!"REPLACE-WITH"]
   (.node (.node .nil
     k!"rxNmPduRefs" [k!"RX-NM-PDU-REF"]
     .nil)
    k!"sectionType" [k!"SECTION-TYPE"]
    .nil))
  k!"serviceKind" [k!"SERVICE-KIND"]
  (.node (.node (.node .nil
     k!"stackUsages" [k!"STACK-USAGES"]
     .nil)
    k!"storeCyclic" [k!"STORE-CYCLIC"]
    .nil)
   k!"subElements" [k!"SUB-ELEMENTS"]
   (.node .nil
    k!"swAlignment" [k!"SW-ALIGNMENT"]
    .nil))))

def nameTable27 : Bst (List Key) :=
 .node nameTable25 k!"labeledList" [k!"LABELED-LIST"] nameTable26

def nameTable28 : Bst (List Key) :=
 .node nameTable24 k!"channelName" [k!"CHANNEL-NAME"] nameTable27

def nameTable29 : Bst (List Key) :=
 .node nameTable21 k!"lowerLimit" [k!"LOWER-LIMIT"] nameTable28

def nameTable30 : Bst (List Key) :=
 .node nameTable14 k!"verbatim" [k!"VERBATIM"] nameTable29

def nameTable31 : Bst (List Key) :=
 (.node (.node (.node (.node (.node .nil
     k!"swAxisConts" [k!"SW-AXIS-CONTS"]
     .nil)
    k!"swAxisIndex" [k!"SW-AXIS-INDEX"]
    .nil)
   k!"swCalprmRef" [k!"SW-CALPRM-REF-PROXY"]
   (.node (.node .nil
     k!"swIsVirtual" [k!"SW-IS-VIRTUAL"]
     .nil)
    k!"swTextProps" [k!"SW-TEXT-PROPS"]
    .nil))
  k!"swValueCont" [k!"SW-VALUE-CONT"]
  (.node (.node (.node .nil
     k!"symbolProps" [k!"SYMBOL-PROPS"]
     .nil)
    k!"testPattern" [k!"TEST-PATTERN"]
    .nil)
   k!"tpAddresses" [k!"TP-ADDRESSS", k!"TP-ADDRESS"]
   (.node (.node .nil
     k!"triggerMode" [k!"TRIGGER-MODE"]
     .nil)
    k!"txNmPduRefs" [k!"TX-NM-PDU-REF"]
    .nil)))
 k!"typeEmitter" [k!"TYPE-EMITTER"]
 (.node (.node (.node (.node .nil
     k!"typeMapping" [k!"TYPE-MAPPING"]
     .nil)
    k!"valueAccess" [k!"VALUE-ACCESS"]
    .nil)
   k!"variableRef" [k!"VARIABLE-REF"]
   (.node (.node .nil
     k!"wakeupRxLow" [k!"WAKEUP-RX-LOW"]
     .nil)
    k!"DocRevisions" [k!"DOC-REVISION"]
    .nil))
  k!"accessCounts" [k!"ACCESS-COUNT"]
  (.node (.node (.node .nil
     k!"aliveTimeout" [k!"ALIVE-TIMEOUT"]
     .nil)
    k!"apiPrinciple" [k!"API-PRINCIPLE"]
    .nil)
   k!"assignedData" [k!"ASSIGNED-DATAS"]
   (.node (.node .nil
     k!"assignedPort" [k!"ASSIGNED-PORTS"]
     .nil)
    k!"bswEntityRef" [k!"BSW-ENTITY-REF"]
    .nil))))

def nameTable32 : Bst (List Key) :=
 (.node (.node (.node (.node (.node .nil
     k!"canEnterRefs" [k!"CAN-ENTER-EXCLUSIVE-AREA-REF"]
     .nil)
    k!"cancellation" [k!"CANCELLATION"]
    .nil)
   k!"chapterModel" [k!"CHAPTER-MODEL"]
   (.node (.node .nil
     k!"compuContent" [k!"COMPU-SCALES"]
     .nil)
    k!"connectorRef" [k!"CONNECTOR-REF"]
    .nil))
  k!"countProfile" [k!"COUNT-PROFILE"]
  (.node (.node (.node .nil
     k!"cyclicTiming" [k!"CYCLIC-TIMING"]
     .nil)
    k!"dataMappings" [k!"DATA-MAPPINGS"]
    .nil)
   k!"dataTypeMaps" [k!"DATA-TYPE-MAP"]
   (.node (.node .nil
     k!"defCalprmSet" [k!"DEF-CALPRM-SET"]
     .nil)
    k!"defaultValue" [k!"DEFAULT-VALUE"]
    .nil)))
 k!"dependencies" [k!"DEPENDENCIES"]
 (.node (.node (.node (.node .nil
     k!"ecucQueryRef" [k!"ECUC-QUERY-REF"]
     .nil)
    k!"elementProps" [k!"SIGNAL-SERVICE-TRANSLATION-ELEMENT-PROPS"]
    .nil)
   k!"enableUpdate" [k!"ENABLE-UPDATE"]
   (.node (.node .nil
     k!"externalSync" [k!"EXTERNAL-SYNC"]
     .nil)
    k!"firstElement" [k!"FIRST-ELEMENTS"]
    .nil))
  k!"flexrayFifos" [k!"FLEXRAY-FIFOS"]
  (.node (.node (.node .nil
     k!"headerLength" [k!"HEADER-LENGTH"]
     .nil)
    k!"hwElementRef" [k!"HW-ELEMENT-REF"]
    .nil)
   k!"iPduMappings" [k!"I-PDU-MAPPING"]
   (.node .nil
    k!"iPduPortRefs" [k!"I-PDU-PORT-REF"]
    .nil))))

def nameTable33 : Bst (List Key) :=
 .node nameTable31 k!"bswEntryKind" [k!"BSW-ENTRY-KIND"] nameTable32

def nameTable34 : Bst (List Key) :=
 (.node (.node (.node (.node (.node .nil
     k!"indentSample" [k!"INDENT-SAMPLE"]
     .nil)
    k!"interfaceRef" [k!"INTERFACE-REF"]
    .nil)
   k!"intervalType" [k!"INTERVAL-TYPE"]
   (.node (.node .nil
     k!"introduction" [k!"INTRODUCTION"]
     .nil)
    k!"invalidValue" [k!"INVALID-VALUE"]
    .nil))
  k!"itemContents" [k!"ITEM-CONTENTS"]
  (.node (.node (.node .nil
     k!"itemLabelPos" [k!"ITEMLABELPOS"]
     .nil)
    k!"labeledItems" [k!"LABELED-ITEM"]
    .nil)
   k!"linTpNSduRef" [k!"LIN-TP-N-SDU-REF"]
   (.node (.node .nil
     k!"macLayerType" [k!"MAC-LAYER-TYPE"]
     .nil)
    k!"maxBlockSize" [k!"MAX-BLOCK-SIZE"]
    .nil)))
 k!"minimumDelay" [k!"MINIMUM-DELAY"]
 (.node (.node (.node (.node .nil
     k!"minorVersion" [k!"MINOR-VERSION"]
     .nil)
    k!"modeGroupRef" [k!"MODE-GROUP-REF"]
    .nil)
   k!"msrQueryArgs" [k!"MSR-QUERY-ARG"]
   (.node (.node .nil
     k!"msrQueryName" [k!"MSR-QUERY-NAME"]
     .nil)
    k!"multicastRef" [k!"MULTICAST-REF"]
    .nil))
  k!"numberOfBits" [k!"NUMBER-OF-BITS"]
  (.node (.node (.node .nil
     k!"nvBlockNeeds" [k!"NV-BLOCK-NEEDS"]
     .nil)
    k!"operationRef" [k!"OPERATION-REF"]
    .nil)
   k!"outerPortRef" [k!"OUTER-PORT-REF"]
   (.node .nil
    k!"paddingValue" [k!"PADDING-VALUE"]
    .nil))))

def nameTable35 : Bst (List Key) :=
 (.node (.node (.node (.node (.node .nil
     k!"pncNmRequest" [k!"PNC-NM-REQUEST"]
     .nil)
    k!"protocolName" [k!"PROTOCOL-NAME"]
    .nil)
   k!"providerIRef" [k!"PROVIDER-IREF"]
   (.node (.node .nil
     k!"reactionCode" [k!"REACTION-CODE"]
     .nil)
    k!"receiverRefs" [k!"RECEIVER-REF"]
    .nil))
  k!"refCalprmSet" [k!"REF-CALPRM-SET"]
  (.node (.node (.node .nil
     k!"rpImplPolicy" [k!"RP-IMPL-POLICY"]
     .nil)
    k!"safetyMargin" [k!"SAFETY-MARGIN"]
    .nil)
   k!"scaleConstrs" [k!"SCALE-CONSTR"]
   (.node (.node .nil
     k!"sendActivity" [k!"SEND-ACTIVITY"]
     .nil)
    k!"serviceNeeds" [k!"SERVICE-NEEDS"]
    .nil)))
 k!"subGroupRefs" [k!"SUB-GROUP-REF"]
 (.node (.node (.node (.node .nil
     k!"swFeatureDef" [k!"SW-FEATURE-DEF"]
     .nil)
    k!"swImplPolicy" [k!"SW-IMPL-POLICY"]
    .nil)
   k!"swValuesPhys" [k!"SW-VALUES-PHYS"]
   (.node (.node .nil
     k!"symbolWindow" [k!"SYMBOL-WINDOW"]
     .nil)
    k!"tableEntries" [k!"TABLE-ENTRYS"]
    .nil))
  k!"tpAddressRef" [k!"TP-ADDRESS-REF"]
  (.node (.node (.node .nil
     k!"tpTechnology" [k!"TP-TECHNOLOGY"]
     .nil)
    k!"udsDtcNumber" [k!"UDS-DTC-NUMBER"]
    .nil)
   k!"v2xSupported" [k!"V-2-X-SUPPORTED"]
   (.node .nil
    k!"wakeupRxIdle" [k!"WAKEUP-RX-IDLE"]
    .nil))))

def nameTable36 : Bst (List Key) :=
 .node nameTable34 k!"parameterRef" [k!"PARAMETER-REF"] nameTable35

def nameTable37 : Bst (List Key) :=
 .node nameTable33 k!"iSignalProps" [k!"I-SIGNAL-PROPS"] nameTable36

def nameTable38 : Bst (List Key) :=
 (.node (.node (.node (.node (.node .nil
     k!"autoAvailable" [k!"AUTO-AVAILABLE"]
     .nil)
    k!"bswTriggerRef" [k!"BSW-TRIGGER-REF"]
    .nil)
   k!"canFdBaudrate" [k!"CAN-FD-BAUDRATE"]
   (.node (.node .nil
     k!"canXlBaudrate" [k!"CAN-XL-BAUDRATE"]
     .nil)
    k!"clientPortRef" [k!"CLIENT-PORT-REF"]
    .nil))
  k!"configVariant" [k!"CONFIG-VARIANT"]
  (.node (.node (.node .nil
     k!"controllerRef" [k!"CONTROLLER-REF"]
     .nil)
    k!"counterOffset" [k!"COUNTER-OFFSET"]
    .nil)
   k!"couplingPorts" [k!"COUPLING-PORT"]
   (.node (.node .nil
     k!"cseCodeFactor" [k!"CSE-CODE-FACTOR"]
     .nil)
    k!"cycleCountMax" [k!"CYCLE-COUNT-MAX"]
    .nil)))
 k!"dataConstrRef" [k!"DATA-CONSTR-REF"]
 (.node (.node (.node (.node .nil
     k!"defaultRouter" [k!"DEFAULT-ROUTER"]
     .nil)
    k!"definitionRef" [k!"DEFINITION-REF"]
    .nil)
   k!"displayFormat" [k!"DISPLAY-FORMAT"]
   (.node (.node .nil
     k!"dtcFormatType" [k!"DTC-FORMAT-TYPE"]
     .nil)
    k!"dynamicLength" [k!"DYNAMIC-LENGTH"]
    .nil))
  k!"ecuExtractRef" [k!"ECU-EXTRACT-REF"]
  (.node (.node (.node .nil
     k!"ecucValueRefs" [k!"ECUC-VALUES"]
     .nil)
    k!"elementGroups" [k!"ELEMENT-GROUPS"]
    .nil)
   k!"enableAnycast" [k!"ENABLE-ANYCAST"]
   (.node (.node .nil
     k!"errorHandling" [k!"ERROR-HANDLING"]
     .nil)
    k!"eventHandlers" [k!"EVENT-HANDLER"]
    .nil))))

def nameTable39 : Bst (List Key) :=
 (.node (.node (.node (.node (.node .nil
     k!"exitedModeRef" [k!"EXITED-MODE-REF"]
     .nil)
    k!"fibexElements" [k!"FIBEX-ELEMENT-REF"]
    .nil)
   k!"firstModeRefs" [k!"FIRST-MODE-REF"]
   (.node (.node .nil
     k!"framePortRefs" [k!"FRAME-PORT-REF"]
     .nil)
    k!"handleInvalid" [k!"HANDLE-INVALID"]
    .nil))
  k!"hwElementRefs" [k!"HW-ELEMENT-REF"]
  (.node (.node (.node .nil
     k!"ignoreAfterTx" [k!"IGNORE-AFTER-TX"]
     .nil)
    k!"industryGroup" [k!"INDUSTRY-GROUP"]
    .nil)
   k!"initialStatus" [k!"INITIAL-STATUS"]
   (.node (.node .nil
     k!"isSynchronous" [k!"IS-SYNCHRONOUS"]
     .nil)
    k!"keepAliveTime" [k!"KEEP-ALIVE-TIME"]
    .nil)))
 k!"listenTimeout" [k!"LISTEN-TIMEOUT"]
 (.node (.node (.node (.node .nil
     k!"macroPerCycle" [k!"MACRO-PER-CYCLE"]
     .nil)
    k!"maxAliveCycle" [k!"MAX-ALIVE-CYCLE"]
    .nil)
   k!"maxRptEventId" [k!"MAX-RPT-EVENT-ID"]
   (.node (.node .nil
     k!"maxSizeToFill" [k!"MAX-SIZE-TO-FILL"]
     .nil)
    k!"microPerCycle" [k!"MICRO-PER-CYCLE"]
    .nil))
  k!"minAliveCycle" [k!"MIN-ALIVE-CYCLE"]
  (.node (.node (.node .nil
     k!"minRptEventId" [k!"MIN-RPT-EVENT-ID"]
     .nil)
    k!"modeGroupIRef" [k!"MODE-GROUP-IREF"]
    .nil)
   k!"modifications" [k!"MODIFICATION"]
   (.node .nil
    k!"msrQueryProps" [k!"MSR-QUERY-PROPS"]
    .nil))))

def nameTable40 : Bst (List Key) :=
 .node nameTable38 k!"eventNeedsRef" [k!"EVENT-NEEDS-REF"] nameTable39

def nameTable41 : Bst (List Key) :=
 (.node (.node (.node (.node (.node .nil
     k!"nmNidPosition" [k!"NM-NID-POSITION"]
     .nil)
    k!"nmRangeConfig" [k!"NM-RANGE-CONFIG"]
    .nil)
   k!"operationIRef" [k!"OPERATION-IREF"]
   (.node (.node .nil
     k!"physicalProps" [k!"PHYSICAL-PROPS"]
     .nil)
    k!"portArgValues" [k!"PORT-ARG-VALUES"]
    .nil))
  k!"portScheduler" [k!"PORT-SCHEDULER"]
  (.node (.node (.node .nil
     k!"processorMode" [k!"PROCESSOR-MODE"]
     .nil)
    k!"providedDatas" [k!"PROVIDED-DATAS"]
    .nil)
   k!"requesterIRef" [k!"REQUESTER-IREF"]
   (.node (.node .nil
     k!"requiredDatas" [k!"REQUIRED-DATAS"]
     .nil)
    k!"requiresIndex" [k!"REQUIRES-INDEX"]
    .nil)))
 k!"revisionLabel" [k!"REVISION-LABEL"]
 (.node (.node (.node (.node .nil
     k!"rptComponents" [k!"RPT-COMPONENT"]
     .nil)
    k!"rptHookAccess" [k!"RPT-HOOK-ACCESS"]
    .nil)
   k!"rptImplPolicy" [k!"RPT-IMPL-POLICY"]
   (.node (.node .nil
     k!"rptReadAccess" [k!"RPT-READ-ACCESS"]
     .nil)
    k!"rteEventIRefs" [k!"RTE-EVENT-IREF"]
    .nil))
  k!"secondElement" [k!"SECOND-ELEMENTS"]
  (.node (.node (.node .nil
     k!"secondModeRef" [k!"SECOND-MODE-REF"]
     .nil)
    k!"segmentLength" [k!"SEGMENT-LENGTH"]
    .nil)
   k!"serverPortRef" [k!"SERVER-PORT-REF"]
   (.node .nil
    k!"sourceIpduRef" [k!"SOURCE-I-PDU-REF"]
    .nil))))

def nameTable42 : Bst (List Key) :=
 (.node (.node (.node (.node (.node .nil
     k!"structuredReq" [k!"STRUCTURED-REQ"]
     .nil)
    k!"subContainers" [k!"SUB-CONTAINERS"]
    .nil)
   k!"swAxisGeneric" [k!"SW-AXIS-GENERIC"]
   (.node (.node .nil
     k!"swAxisTypeRef" [k!"SW-AXIS-TYPE-REF"]
     .nil)
    k!"swFeatureDesc" [k!"SW-FEATURE-DESC"]
    .nil))
  k!"swMaxTextSize" [k!"SW-MAX-TEXT-SIZE"]
  (.node (.node (.node .nil
     k!"syncJumpWidth" [k!"SYNC-JUMP-WIDTH"]
     .nil)
    k!"systemVersion" [k!"SYSTEM-VERSION"]
    .nil)
   k!"targetModeRef" [k!"TARGET-MODE-REF"]
   (.node (.node .nil
     k!"tcpIpPropsRef" [k!"TCP-IP-PROPS"]
     .nil)
    k!"topic1.topic1" [k!"TOPIC-1"]
    .nil)))
 k!"tpConnections" [k!"TP-CONNECTIONS"]
 (.node (.node (.node (.node .nil
     k!"unitGroupRefs" [k!"UNIT-GROUP-REF"]
     .nil)
    k!"usedLanguages" [k!"USED-LANGUAGES"]
    .nil)
   k!"valueTypeTRef" [k!"VALUE-TYPE-TREF"]
   (.node (.node .nil
     k!"vehicleSystem" [k!"VEHICLE-SYSTEM"]
     .nil)
    k!"wakeUpPattern" [k!"WAKE-UP-PATTERN"]
    .nil))
  k!"writeOnlyOnce" [k!"WRITE-ONLY-ONCE"]
  (.node (.node (.node .nil
     k!"writtenNvData" [k!"WRITTEN-NV-DATA"]
     .nil)
    k!"_receiverIRefs" [k!"RECEIVER-IREF"]
    .nil)
   k!"accessPointRef" [k!"ACCESS-POINT-REF"]
   (.node .nil
    k!"annotationText" [k!"ANNOTATION-TEXT"]
    .nil))))

def nameTable43 : Bst (List Key) :=
 .node nameTable41 k!"startPosition" [k!"START-POSITION"] nameTable42

def nameTable44 : Bst (List Key) :=
 .node nameTable40 k!"nmCbvPosition" [k!"NM-CBV-POSITION"] nameTable43

def nameTable45 : Bst (List Key) :=
 .node nameTable37 k!"wakeupTxIdle" [k!"WAKEUP-TX-IDLE"] nameTable44

def nameTable46 : Bst (List Key) :=
 (.node (.node (.node (.node (.node .nil
     k!"bswBehaviorRef" [k!"BSW-BEHAVIOR-REF"]
     .nil)
    k!"busOffRecovery" [k!"BUS-OFF-RECOVERY"]
    .nil)
   k!"calledEntryRef" [k!"CALLED-ENTRY-REF"]
   (.node (.node .nil
     k!"chapterContent" [k!"CHAPTER-CONTENT"]
     .nil)
    k!"componentIRefs" [k!"COMPONENT-IREF"]
    .nil))
  k!"compuMethodRef" [k!"COMPU-METHOD-REF"]
  (.node (.node (.node .nil
     k!"connectionType" [k!"CONNECTION-TYPE"]
     .nil)
    k!"contextPortRef" [k!"CONTEXT-PORT-REF"]
    .nil)
   k!"controlPncRefs" [k!"CONTROL-PNC-REF"]
   (.node (.node .nil
     k!"dataElementRef" [k!"DATA-ELEMENT-REF"]
     .nil)
    k!"dataFilterType" [k!"DATA-FILTER-TYPE"]
    .nil)))
 k!"dataSendPoints" [k!"DATA-SEND-POINTS"]
 (.node (.node (.node (.node .nil
     k!"dataTypePolicy" [k!"DATA-TYPE-POLICY"]
     .nil)
    k!"defaultModeRef" [k!"DEFAULT-MODE-REF"]
    .nil)
   k!"destinationRef" [k!"DESTINATION-REF"]
   (.node (.node .nil
     k!"detectNitError" [k!"DETECT-NIT-ERROR"]
     .nil)
    k!"doIpEntityRole" [k!"DO-IP-ENTITY-ROLE"]
    .nil))
  k!"ecuInstanceRef" [k!"ECU-INSTANCE-REF"]
  (.node (.node (.node .nil
     k!"ecucDefEdition" [k!"ECUC-DEF-EDITION"]
     .nil)
    k!"enteredModeRef" [k!"ENTERED-MODE-REF"]
    .nil)
   k!"eventSourceRef" [k!"EVENT-SOURCE-REF"]
   (.node (.node .nil
     k!"exclusiveAreas" [k!"EXCLUSIVE-AREA"]
     .nil)
    k!"executionTimes" [k!"EXECUTION-TIMES"]
    .nil))))

def nameTable47 : Bst (List Key) :=
 (.node (.node (.node (.node (.node .nil
     k!"flowControlRef" [k!"FLOW-CONTROL-REF"]
     .nil)
    k!"formulaCaption" [k!"FORMULA-CAPTION"]
    .nil)
   k!"freshnessProps" [k!"FRESHNESS-PROPSS"]
   (.node (.node .nil
     k!"hwCategoryRefs" [k!"HW-CATEGORY-REF"]
     .nil)
    k!"hwPinGroupRefs" [k!"HW-PIN-GROUP-REF"]
    .nil))
  k!"iSignalIPduRef" [k!"I-SIGNAL-I-PDU-REF"]
  (.node (.node (.node .nil
     k!"initialModeRef" [k!"INITIAL-MODE-REF"]
     .nil)
    k!"innerPortIRref" [k!"INNER-PORT-IREF"]
    .nil)
   k!"lifeCycleInfos" [k!"LIFE-CYCLE-INFO"]
   (.node (.node .nil
     k!"maxSamplePoint" [k!"MAX-SAMPLE-POINT"]
     .nil)
    k!"mcFunctionRefs" [k!"MC-FUNCTION-REF"]
    .nil)))
 k!"memClassSymbol" [k!"MEM-CLASS-SYMBOL"]
 (.node (.node (.node (.node .nil
     k!"memorySections" [k!"MEMORY-SECTION"]
     .nil)
    k!"minOkStateInit" [k!"MIN-OK-STATE-INIT"]
    .nil)
   k!"minSamplePoint" [k!"MIN-SAMPLE-POINT"]
   (.node (.node .nil
     k!"molarAmountExp" [k!"MOLAR-AMOUNT-EXP"]
     .nil)
    k!"nmCoordCluster" [k!"NM-COORD-CLUSTER"]
    .nil))
  k!"nmMsgCycleTime" [k!"NM-MSG-CYCLE-TIME"]
  (.node (.node (.node .nil
     k!"offsetSiToUnit" [k!"OFFSET-SI-TO-UNIT"]
     .nil)
    k!"operationCycle" [k!"OPERATION-CYCLE"]
    .nil)
   k!"pncGatewayType" [k!"PNC-GATEWAY-TYPE"]
   (.node .nil
    k!"portAPIOptions" [k!"PORT-API-OPTION"]
    .nil))))

def nameTable48 : Bst (List Key) :=
 .node nameTable46 k!"factorSiToUnit" [k!"FACTOR-SI-TO-UNIT"] nameTable47

def nameTable49 : Bst (List Key) :=
 (.node (.node (.node (.node (.node .nil
     k!"processingKind" [k!"PROCESSING-KIND"]
     .nil)
    k!"processorSpeed" [k!"PROCESSOR-SPEED"]
    .nil)
   k!"ramLocationRef" [k!"RAM-LOCATION-REF"]
   (.node (.node .nil
     k!"receptionProps" [k!"RECEPTION-PROPS"]
     .nil)
    k!"referenceBases" [k!"REFERENCE-BASE"]
    .nil))
  k!"restoreAtStart" [k!"RESTORE-AT-START"]
  (.node (.node (.node .nil
     k!"resumePosition" [k!"RESUME-POSITION"]
     .nil)
    k!"revisionLabels" [k!"REVISION-LABEL"]
    .nil)
   k!"romLocationRef" [k!"ROM-LOCATION-REF"]
   (.node (.node .nil
     k!"rptSupportData" [k!"RPT-SUPPORT-DATA"]
     .nil)
    k!"rptWriteAccess" [k!"RPT-WRITE-ACCESS"]
    .nil)))
 k!"runsInsideRefs" [k!"RUNS-INSIDE-EXCLUSIVE-AREA-REF"]
 (.node (.node (.node (.node .nil
     k!"scheduleTables" [k!"SCHEDULE-TABLES"]
     .nil)
    k!"sdClientConfig" [k!"SD-CLIENT-CONFIG"]
    .nil)
   k!"sdServerConfig" [k!"SD-SERVER-CONFIG"]
   (.node (.node .nil
     k!"serviceControl" [k!"SERVICE-CONTROL"]
     .nil)
    k!"signalGroupRef" [k!"SIGNAL-GROUP-REF"]
    .nil))
  k!"signalMappings" [k!"SIGNAL-MAPPINGS"]
  (.node (.node (.node .nil
     k!"staticMemories" [k!"STATIC-MEMORYS"]
     .nil)
    k!"storeEmergency" [k!"STORE-EMERGENCY"]
    .nil)
   k!"storeImmediate" [k!"STORE-IMMEDIATE"]
   (.node .nil
    k!"successor_refs" [k!"SUCCESSOR-REF"]
    .nil))))

def nameTable50 : Bst (List Key) :=
 (.node (.node (.node (.node (.node .nil
     k!"swHostVariable" [k!"SW-HOST-VARIABLE"]
     .nil)
    k!"swImplMappings" [k!"SW-IMPL-MAPPINGS"]
    .nil)
   k!"sw_impl_policy" [k!"SW-IMPL-POLICY"]
   (.node (.node .nil
     k!"swcBehaviorRef" [k!"SWC-BEHAVIOR-REF"]
     .nil)
    k!"swcRunnableRef" [k!"SWC-RUNNABLE-REF"]
    .nil))
  k!"swcTriggerIRef" [k!"SWC-TRIGGER-IREF"]
  (.node (.node (.node .nil
     k!"targetCategory" [k!"TARGET-CATEGORY"]
     .nil)
    k!"targetEventRef" [k!"TARGET-EVENT-REF"]
    .nil)
   k!"targetModuleId" [k!"TARGET-MODULE-ID"]
   (.node (.node .nil
     k!"targetPPortRef" [k!"TARGET-P-PORT-REF"]
     .nil)
    k!"targetRPortRef" [k!"TARGET-R-PORT-REF"]
    .nil)))
 k!"temperatureExp" [k!"TEMPERATURE-EXP"]
 (.node (.node (.node (.node .nil
     k!"testedItemRefs" [k!"TESTED-ITEM-REF"]
     .nil)
    k!"timeBaseJitter" [k!"TIME-BASE-JITTER"]
    .nil)
   k!"timingEventRef" [k!"TIMING-EVENT-REF"]
   (.node (.node .nil
     k!"tracedFailures" [k!"TRACED-FAILURES"]
     .nil)
    k!"transformerRef" [k!"TRANSFORMER-REF"]
    .nil))
  k!"transmitterRef" [k!"TRANSMITTER-REF"]
  (.node (.node (.node .nil
     k!"twoKeySlotMode" [k!"TWO-KEY-SLOT-MODE"]
     .nil)
    k!"typeDefinition" [k!"TYPE-DEFINITION"]
    .nil)
   k!"useInsteadRefs" [k!"USE-INSTEAD-REF"]
   (.node .nil
    k!"variationPoint" [k!"VARIATION-POINT"]
    .nil))))

def nameTable51 : Bst (List Key) :=
 .node nameTable49 k!"swDataDefProps" [k!"SW-DATA-DEF-PROPS"] nameTable50

def nameTable52 : Bst (List Key) :=
 .node nameTable48 k!"possibleErrors" [k!"POSSIBLE-ERRORS"] nameTable51

def nameTable53 : Bst (List Key) :=
 (.node (.node (.node (.node (.node .nil
     k!"vlanIdentifier" [k!"VLAN-IDENTIFIER"]
     .nil)
    k!"wakeupRxWindow" [k!"WAKEUP-RX-WINDOW"]
    .nil)
   k!"wakeupTxActive" [k!"WAKEUP-TX-ACTIVE"]
   (.node (.node .nil
     k!"windowSizeInit" [k!"WINDOW-SIZE-INIT"]
     .nil)
    k!"CycleRepetition" [k!"CYCLE-REPETITION"]
    .nil))
  k!"_outer_port_ref" [k!"OUTER-PORTS"]
  (.node (.node (.node .nil
     k!"accessCountSets" [k!"ACCESS-COUNT-SET"]
     .nil)
    k!"activateAtStart" [k!"ACTIVATE-AT-START"]
    .nil)
   k!"autosarVariable" [k!"AUTOSAR-VARIABLE"]
   (.node (.node .nil
     k!"bswModeGroupRef" [k!"BSW-MODE-GROUP-REF"]
     .nil)
    k!"calcRamBlockCrc" [k!"CALC-RAM-BLOCK-CRC"]
    .nil)))
 k!"canTpChannelRef" [k!"CAN-TP-CHANNEL-REF"]
 (.node (.node (.node (.node .nil
     k!"checkpointsRefs" [k!"CHECKPOINTSS"]
     .nil)
    k!"classifications" [k!"CLASSIFICATION"]
    .nil)
   k!"codeDescriptors" [k!"CODE-DESCRIPTORS"]
   (.node (.node .nil
     k!"conditionAccess" [k!"CONDITION-ACCESS"]
     .nil)
    k!"contextPPortRef" [k!"CONTEXT-P-PORT-REF"]
    .nil))
  k!"contextRPortRef" [k!"CONTEXT-R-PORT-REF"]
  (.node (.node (.node .nil
     k!"csErrorReaction" [k!"CS-ERROR-REACTION"]
     .nil)
    k!"currentValueRef" [k!"CURRENT-VALUE-REF"]
    .nil)
   k!"cycleRepetition" [k!"CYCLE-REPETITION"]
   (.node .nil
    k!"dataElementIRef" [k!"DATA-ELEMENT-IREF"]
    .nil))))

def nameTable54 : Bst (List Key) :=
 (.node (.node (.node (.node (.node .nil
     k!"destinationType" [k!"DESTINATION-TYPE"]
     .nil)
    k!"diagRoutineType" [k!"DIAG-ROUTINE-TYPE"]
    .nil)
   k!"endToEndProfile" [k!"END-TO-END-PROFILE"]
   (.node (.node .nil
     k!"enhancedModeApi" [k!"ENHANCED-MODE-API"]
     .nil)
    k!"flatMapEntryRef" [k!"FLAT-MAP-ENTRY-REF"]
    .nil))
  k!"hwAttributeDefs" [k!"HW-ATTRIBUTE-DEF"]
  (.node (.node (.node .nil
     k!"iSignalGroupRef" [k!"I-SIGNAL-GROUP-REF"]
     .nil)
    k!"iSignalIPduRefs" [k!"I-SIGNAL-I-PDU-REF"]
    .nil)
   k!"iSignalPortRefs" [k!"I-SIGNAL-PORT-REF"]
   (.node (.node .nil
     k!"identifiableRef" [k!"IDENTIFIABLE-REF"]
     .nil)
    k!"identitiyNumber" [k!"IDENTITIY-NUMBER"]
    .nil)))
 k!"informalFormula" [k!"INFORMAL-FORMULA"]
 (.node (.node (.node (.node .nil
     k!"ingressPriority" [k!"INGRESS-PRIORITY"]
     .nil)
    k!"internalConstrs" [k!"INTERNAL-CONSTRS"]
    .nil)
   k!"interruptSource" [k!"INTERRUPT-SOURCE"]
   (.node (.node .nil
     k!"leafElementIRef" [k!"LEAF-ELEMENT-IREF"]
     .nil)
    k!"maxDeltaCounter" [k!"MAX-DELTA-COUNTER"]
    .nil))
  k!"minOkStateValid" [k!"MIN-OK-STATE-VALID"]
  (.node (.node (.node .nil
     k!"modeSwitchedAck" [k!"MODE-SWITCHED-ACK"]
     .nil)
    k!"modeTransitions" [k!"MODE-TRANSITION"]
    .nil)
   k!"naglesAlgorithm" [k!"NAGLES-ALGORITHM"]
   (.node .nil
    k!"networkIdleTime" [k!"NETWORK-IDLE-TIME"]
    .nil))))

def nameTable55 : Bst (List Key) :=
 .node nameTable53 k!"destinationRefs" [k!"DESTINATION-REF"] nameTable54

def nameTable56 : Bst (List Key) :=
 (.node (.node (.node (.node (.node .nil
     k!"nmNodeIdEnabled" [k!"NM-NODE-ID-ENABLED"]
     .nil)
    k!"parameterValues" [k!"PARAMETER-VALUES"]
    .nil)
   k!"physicalChannel" [k!"PHYSICAL-CHANNELS"]
   (.node (.node .nil
     k!"positionInTable" [k!"POSITION-IN-TABLE"]
     .nil)
    k!"processingStyle" [k!"PROCESSING-STYLE"]
    .nil))
  k!"profileBehavior" [k!"PROFILE-BEHAVIOR"]
  (.node (.node (.node .nil
     k!"protocolVersion" [k!"PROTOCOL-VERSION"]
     .nil)
    k!"receivedDataRef" [k!"RECEIVED-DATA-REF"]
    .nil)
   k!"record_elements" [k!"ELEMENTS"]
   (.node (.node .nil
     k!"reentrancyLevel" [k!"REENTRANCY-LEVEL"]
     .nil)
    k!"referenceValues" [k!"REFERENCE-VALUES"]
    .nil)))
 k!"rptServicePoint" [k!"RPT-SERVICE-POINT"]
 (.node (.node (.node (.node .nil
     k!"ruleBasedValues" [k!"RULE-BASED-VALUES"]
     .nil)
    k!"safeTranslation" [k!"SAFE-TRANSLATION"]
    .nil)
   k!"schema_location" [k!"xsi:schemaLocation"]
   (.node (.node .nil
     k!"secondKeySlotId" [k!"SECOND-KEY-SLOT-ID"]
     .nil)
    k!"segmentPosition" [k!"SEGMENT-POSITION"]
    .nil))
  k!"socketAddresses" [k!"SOCKET-ADDRESS"]
  (.node (.node (.node .nil
     k!"softwareContext" [k!"SOFTWARE-CONTEXT"]
     .nil)
    k!"sourceSignalRef" [k!"SOURCE-SIGNAL-REF"]
    .nil)
   k!"startOnEventRef" [k!"START-ON-EVENT-REF"]
   (.node .nil
    k!"storeAtShutdown" [k!"STORE-AT-SHUTDOWN"]
    .nil))))

def nameTable57 : Bst (List Key) :=
 (.node (.node (.node (.node (.node .nil
     k!"swAddrMethodRef" [k!"SW-ADDR-METHOD-REF", k!"SW-ADDRMETHOD-REF"]
     .nil)
    k!"swFillCharacter" [k!"SW-FILL-CHARACTER"]
    .nil)
   k!"swMaxAxisPoints" [k!"SW-MAX-AXIS-POINTS"]
   (.node (.node .nil
     k!"swMinAxisPoints" [k!"SW-MIN-AXIS-POINTS"]
     .nil)
    k!"swRefreshTiming" [k!"SW-REFRESH-TIMING"]
    .nil))
  k!"syncCounterInit" [k!"SYNC-COUNTER-INIT"]
  (.node (.node (.node .nil
     k!"systemSignalRef" [k!"SYSTEM-SIGNAL-REF"]
     .nil)
    k!"targetModuleRef" [k!"TARGET-MODULE-REF"]
    .nil)
   k!"targetSignalRef" [k!"TARGET-SIGNAL-REF"]
   (.node (.node .nil
     k!"tpConfiguration" [k!"TP-CONFIGURATION"]
     .nil)
    k!"txBitRateSwitch" [k!"TX-BIT-RATE-SWITCH"]
    .nil)))
 k!"usedDataElement" [k!"USED-DATA-ELEMENT"]
 (.node (.node (.node (.node .nil
     k!"usesMonitorData" [k!"USES-MONITOR-DATA"]
     .nil)
    k!"vlanMemberships" [k!"VLAN-MEMBERSHIP"]
    .nil)
   k!"windowSizeValid" [k!"WINDOW-SIZE-VALID"]
   (.node (.node .nil
     k!"writingPriority" [k!"WRITING-PRIORITY"]
     .nil)
    k!"addressingFormat" [k!"ADDRESSING-FORMAT"]
    .nil))
  k!"annotationOrigin" [k!"ANNOTATION-ORIGIN"]
  (.node (.node (.node .nil
     k!"apiServicePrefix" [k!"API-SERVICE-PREFIX"]
     .nil)
    k!"arReleaseVersion" [k!"AR-RELEASE-VERSION"]
    .nil)
   k!"assignedEntryRef" [k!"ASSIGNED-ENTRY-REF"]
   (.node .nil
    k!"authInfoTxLength" [k!"AUTH-INFO-TX-LENGTH"]
    .nil))))

def nameTable58 : Bst (List Key) :=
 .node nameTable56 k!"subFunctionRefs" [k!"SUB-FUNCTION-REF"] nameTable57

def nameTable59 : Bst (List Key) :=
 .node nameTable55 k!"nmChannelActive" [k!"NM-CHANNEL-ACTIVE"] nameTable58

def nameTable60 : Bst (List Key) :=
 .node nameTable52 k!"vendorApiInfix" [k!"VENDOR-API-INFIX"] nameTable59

def nameTable61 : Bst (List Key) :=
 .node nameTable45 k!"blueprintValue" [k!"BLUEPRINT-VALUE"] nameTable60

def nameTable62 : Bst (List Key) :=
 .node nameTable30 k!"swArraysize" [k!"SW-ARRAYSIZE"] nameTable61

def nameTable63 : Bst (List Key) :=
 (.node (.node (.node (.node (.node .nil
     k!"borCounterL1ToL2" [k!"BOR-COUNTER-L-1-TO-L-2"]
     .nil)
    k!"bufferProperties" [k!"BUFFER-PROPERTIES"]
    .nil)
   k!"chapter.chapters" [k!"CHAPTER"]
   (.node (.node .nil
     k!"compuNumerator.v" [k!"V"]
     .nil)
    k!"conditionFormula" [k!"CONDITION-FORMULA"]
    .nil))
  k!"consistencyNeeds" [k!"CONSISTENCY-NEEDS"]
  (.node (.node (.node .nil
     k!"constantMemories" [k!"CONSTANT-MEMORYS"]
     .nil)
    k!"controlledFidRef" [k!"CONTROLLED-FID-REF"]
    .nil)
   k!"dataReadAccesses" [k!"DATA-READ-ACCESSS"]
   (.node (.node .nil
     k!"dataUpdatePeriod" [k!"DATA-UPDATE-PERIOD"]
     .nil)
    k!"data_constr_rule" [k!"DATA-CONSTR-RULE"]
    .nil)))
 k!"deferringFidRefs" [k!"DEFERRING-FID-REF"]
 (.node (.node (.node (.node .nil
     k!"diagArgIntegrity" [k!"DIAG-ARG-INTEGRITY"]
     .nil)
    k!"ecuTaskProxyRefs" [k!"ECU-TASK-PROXY-REF"]
    .nil)
   k!"exclusiveAreaRef" [k!"EXCLUSIVE-AREA-REF"]
   (.node (.node .nil
     k!"executionContext" [k!"EXECUTION-CONTEXT"]
     .nil)
    k!"fallBackInternal" [k!"FALL-BACK-INTERNAL"]
    .nil))
  k!"firewallRuleRefs" [k!"FIREWALL-RULE-REF"]
  (.node (.node (.node .nil
     k!"flatMapEntryRefs" [k!"FLAT-MAP-ENTRY-REF"]
     .nil)
    k!"frameTriggerings" [k!"FRAME-TRIGGERINGS"]
    .nil)
   k!"freshnessValueId" [k!"FRESHNESS-VALUE-ID"]
   (.node (.node .nil
     k!"functionInstance" [k!"FUNCTION-INSTANCE"]
     .nil)
    k!"handleDataStatus" [k!"HANDLE-DATA-STATUS"]
    .nil))))

def nameTable64 : Bst (List Key) :=
 (.node (.node (.node (.node (.node .nil
     k!"hasDynamicLength" [k!"HAS-DYNAMIC-LENGTH"]
     .nil)
    k!"hasInternalState" [k!"HAS-INTERNAL-STATE"]
    .nil)
   k!"hwPinConnections" [k!"HW-PIN-CONNECTION"]
   (.node (.node .nil
     k!"iSignalInIPduRef" [k!"I-SIGNAL-IN-I-PDU-REF"]
     .nil)
    k!"identicalMapping" [k!"IDENTICAL-MAPPING"]
    .nil))
  k!"implementedInRef" [k!"IMPLEMENTED-IN-REF"]
  (.node (.node (.node .nil
     k!"inMeasurementSet" [k!"IN-MEASUREMENT-SET"]
     .nil)
    k!"indexDataTypeRef" [k!"INDEX-DATA-TYPE-REF"]
    .nil)
   k!"inhibitingFidRef" [k!"INHIBITING-FID-REF"]
   (.node (.node .nil
     k!"instanceInMemory" [k!"INSTANCE-IN-MEMORY"]
     .nil)
    k!"internalBehavior" [k!"INTERNAL-BEHAVIORS"]
    .nil)))
 k!"localVariableRef" [k!"LOCAL-VARIABLE-REF"]
 (.node (.node (.node (.node .nil
     k!"manufacturerCode" [k!"MANUFACTURER-CODE"]
     .nil)
    k!"mappingDirection" [k!"MAPPING-DIRECTION"]
    .nil)
   k!"maxSyncJumpWidth" [k!"MAX-SYNC-JUMP-WIDTH"]
   (.node (.node .nil
     k!"maximumKeyLength" [k!"MAXIMUM-KEY-LENGTH"]
     .nil)
    k!"minSyncJumpWidth" [k!"MIN-SYNC-JUMP-WIDTH"]
    .nil))
  k!"minislotDuration" [k!"MINISLOT-DURATION"]
  (.node (.node (.node .nil
     k!"modeAccessPoints" [k!"MODE-ACCESS-POINT"]
     .nil)
    k!"modeSwitchPoints" [k!"MODE-SWITCH-POINT"]
    .nil)
   k!"msrQueryResultP2" [k!"MSR-QUERY-RESULT-P2"]
   (.node .nil
    k!"networkEndpoints" [k!"NETWORK-ENDPOINT"]
    .nil))))

def nameTable65 : Bst (List Key) :=
 .node nameTable63 k!"handleOutOfRange" [k!"HANDLE-OUT-OF-RANGE"] nameTable64

def nameTable66 : Bst (List Key) :=
 (.node (.node (.node (.node (.node .nil
     k!"nmMsgReducedTime" [k!"NM-MSG-REDUCED-TIME"]
     .nil)
    k!"nmNetworkTimeout" [k!"NM-NETWORK-TIMEOUT"]
    .nil)
   k!"nmUserDataLength" [k!"NM-USER-DATA-LENGTH"]
   (.node (.node .nil
     k!"offerCyclicDelay" [k!"OFFER-CYCLIC-DELAY"]
     .nil)
    k!"ordered_elements" [k!"ORDERED-ELEMENTS"]
    .nil))
  k!"packingByteOrder" [k!"PACKING-BYTE-ORDER"]
  (.node (.node (.node .nil
     k!"pduTriggeringRef" [k!"PDU-TRIGGERING-REF"]
     .nil)
    k!"portPrototypeRef" [k!"PORT-PROTOTYPE-REF"]
    .nil)
   k!"providedComSpecs" [k!"PROVIDED-COM-SPECS"]
   (.node (.node .nil
     k!"refinedEventIRef" [k!"REFINED-EVENT-IREF"]
     .nil)
    k!"repetitionPeriod" [k!"REPETITION-PERIOD"]
    .nil)))
 k!"requiredComSpecs" [k!"REQUIRED-COM-SPECS"]
 (.node (.node (.node (.node .nil
     k!"requiredTriggers" [k!"REQUIRED-TRIGGERS"]
     .nil)
    k!"routingGroupRefs" [k!"ROUTING-GROUP-REF"]
    .nil)
   k!"rptServicePoints" [k!"RPT-SERVICE-POINT"]
   (.node (.node .nil
     k!"runnableMappings" [k!"RUNNABLE-MAPPINGS"]
     .nil)
    k!"segmentByteOrder" [k!"SEGMENT-BYTE-ORDER"]
    .nil))
  k!"segmentPositions" [k!"SEGMENT-POSITION"]
  (.node (.node (.node .nil
     k!"sharedParameters" [k!"SHARED-PARAMETERS"]
     .nil)
    k!"startsOnEventRef" [k!"STARTS-ON-EVENT-REF"]
    .nil)
   k!"supportDirtyFlag" [k!"SUPPORT-DIRTY-FLAG"]
   (.node .nil
    k!"swDataDependency" [k!"SW-DATA-DEPENDENCY"]
    .nil))))

def nameTable67 : Bst (List Key) :=
 (.node (.node (.node (.node (.node .nil
     k!"swValueBlockSize" [k!"SW-VALUE-BLOCK-SIZE"]
     .nil)
    k!"swcBswMappingRef" [k!"SWC-BSW-MAPPING-REF"]
    .nil)
   k!"swcModeGroupIRef" [k!"SWC-MODE-GROUP-IREF"]
   (.node (.node .nil
     k!"systemSignalRefs" [k!"SYSTEM-SIGNAL-REF"]
     .nil)
    k!"targetTriggerRef" [k!"TARGET-TRIGGER-REF"]
    .nil))
  k!"transferProperty" [k!"TRANSFER-PROPERTY"]
  (.node (.node (.node .nil
     k!"transformerClass" [k!"TRANSFORMER-CLASS"]
     .nil)
    k!"transmissionMode" [k!"TRANSMISSION-MODE"]
    .nil)
   k!"unitAndScalingId" [k!"UNIT-AND-SCALING-ID"]
   (.node (.node .nil
     k!"unusedBitPattern" [k!"UNUSED-BIT-PATTERN"]
     .nil)
    k!"variableInstance" [k!"VARIABLE-INSTANCE"]
    .nil)))
 k!"writingFrequency" [k!"WRITING-FREQUENCY"]
 (.node (.node (.node (.node .nil
     k!"BaseIsThisPackage" [k!"BASE-IS-THIS-PACKAGE"]
     .nil)
    k!"_inner_group_iref" [k!"INNER-GROUP-IREF"]
    .nil)
   k!"accessedParameter" [k!"ACCESSED-PARAMETER"]
   (.node (.node .nil
     k!"actionPointOffset" [k!"ACTION-POINT-OFFSET"]
     .nil)
    k!"activationReasons" [k!"ACTIVATION-REASONS"]
    .nil))
  k!"arraySizeHandling" [k!"ARRAY-SIZE-HANDLING"]
  (.node (.node (.node .nil
     k!"assignedDataTypes" [k!"ASSIGNED-DATA-TYPES"]
     .nil)
    k!"assignedEntryRole" [k!"ASSIGNED-ENTRY-ROLES"]
    .nil)
   k!"blockLevelContent" [k!"DOCUMENTATION-BLOCK"]
   (.node .nil
    k!"canAddressingMode" [k!"CAN-ADDRESSING-MODE"]
    .nil))))

def nameTable68 : Bst (List Key) :=
 .node nameTable66 k!"swSystemconstRef" [k!"SW-SYSTEMCONST-REF"] nameTable67

def nameTable69 : Bst (List Key) :=
 .node nameTable65 k!"nmMsgCycleOffset" [k!"NM-MSG-CYCLE-OFFSET"] nameTable68

def nameTable70 : Bst (List Key) :=
 (.node (.node (.node (.node (.node .nil
     k!"clientServerPorts" [k!"CLIENT-SERVER-PORTS"]
     .nil)
    k!"coldStartAttempts" [k!"COLD-START-ATTEMPTS"]
    .nil)
   k!"commConnectorRefs" [k!"COMM-CONNECTORS"]
   (.node (.node .nil
     k!"commControllerRef" [k!"COMM-CONTROLLER-REF"]
     .nil)
    k!"communicationMode" [k!"COMMUNICATION-MODE"]
    .nil))
  k!"compuDefaultValue" [k!"COMPU-DEFAULT-VALUE"]
  (.node (.node (.node .nil
     k!"connectionBundles" [k!"CONNECTION-BUNDLES"]
     .nil)
    k!"dataLengthRequest" [k!"DATA-LENGTH-REQUEST"]
    .nil)
   k!"dataReceivePoints" [k!"DATA-RECEIVE-POINTS"]
   (.node (.node .nil
     k!"dataWriteAccesses" [k!"DATA-WRITE-ACCESSS"]
     .nil)
    k!"defaultLcStateRef" [k!"DEFAULT-LC-STATE-REF"]
    .nil)))
 k!"disabledModeIRefs" [k!"DISABLED-MODE-IREF"]
 (.node (.node (.node (.node .nil
     k!"displayIdentifier" [k!"DISPLAY-IDENTIFIER"]
     .nil)
    k!"ecuExtractVersion" [k!"ECU-EXTRACT-VERSION"]
    .nil)
   k!"emulationSupports" [k!"EMULATION-SUPPORTS"]
   (.node (.node .nil
     k!"enableTakeAddress" [k!"ENABLE-TAKE-ADDRESS"]
     .nil)
    k!"exclusiveAreaRefs" [k!"EXCLUSIVE-AREA-REF"]
    .nil))
  k!"executionContexts" [k!"EXECUTION-CONTEXTS"]
  (.node (.node (.node .nil
     k!"expectedEntryRefs" [k!"EXPECTED-ENTRYS"]
     .nil)
    k!"firstModeGroupRef" [k!"FIRST-MODE-GROUP-REF"]
    .nil)
   k!"firstOperationRef" [k!"FIRST-OPERATION-REF"]
   (.node (.node .nil
     k!"flowControlPduRef" [k!"FLOW-CONTROL-PDU-REF"]
     .nil)
    k!"freshnessPropsRef" [k!"FRESHNESS-PROPS-REF"]
    .nil))))

def nameTable71 : Bst (List Key) :=
 (.node (.node (.node (.node (.node .nil
     k!"hwAttributeDefRef" [k!"HW-ATTRIBUTE-DEF-REF"]
     .nil)
    k!"hwAttributeValues" [k!"HW-ATTRIBUTE-VALUE"]
    .nil)
   k!"internalBehaviors" [k!"INTERNAL-BEHAVIORS"]
   (.node (.node .nil
     k!"interruptCategory" [k!"INTERRUPT-CATEGORY"]
     .nil)
    k!"ipv6AddressSource" [k!"IPV-6-ADDRESS-SOURCE"]
    .nil))
  k!"issuedTriggerRefs" [k!"ISSUED-TRIGGERS"]
  (.node (.node (.node .nil
     k!"keepAliveInterval" [k!"KEEP-ALIVE-INTERVAL"]
     .nil)
    k!"locMeasurementSet" [k!"LOC-MEASUREMENT-SET"]
    .nil)
   k!"localParameterRef" [k!"LOCAL-PARAMETER-REF"]
   (.node (.node .nil
     k!"lowerMultiplicity" [k!"LOWER-MULTIPLICITY"]
     .nil)
    k!"macrotickDuration" [k!"MACROTICK-DURATION"]
    .nil)))
 k!"maxErrorStateInit" [k!"MAX-ERROR-STATE-INIT"]
 (.node (.node (.node (.node .nil
     k!"mcDataAssignments" [k!"MC-DATA-ASSIGNMENTS"]
     .nil)
    k!"mcDataInstanceRef" [k!"MC-DATA-INSTANCE-REF"]
    .nil)
   k!"memoryConsumption" [k!"MEMORY-CONSUMPTION"]
   (.node (.node .nil
     k!"messageLinkLength" [k!"MESSAGE-LINK-LENGTH"]
     .nil)
    k!"microtickDuration" [k!"MICROTICK-DURATION"]
    .nil))
  k!"minOkStateInvalid" [k!"MIN-OK-STATE-INVALID"]
  (.node (.node (.node .nil
     k!"needsOriginalData" [k!"NEEDS-ORIGINAL-DATA"]
     .nil)
    k!"nestedElementRefs" [k!"NESTED-ELEMENTS"]
    .nil)
   k!"nmCoordinatorRole" [k!"NM-COORDINATOR-ROLE"]
   (.node .nil
    k!"nmUserDataEnabled" [k!"NM-USER-DATA-ENABLED"]
    .nil))))

def nameTable72 : Bst (List Key) :=
 .node nameTable70 k!"handleTimeoutType" [k!"HANDLE-TIMEOUT-TYPE"] nameTable71

def nameTable73 : Bst (List Key) :=
 (.node (.node (.node (.node (.node .nil
     k!"nvRamBlockElement" [k!"NV-RAM-BLOCK-ELEMENT"]
     .nil)
    k!"onTransitionValue" [k!"ON-TRANSITION-VALUE"]
    .nil)
   k!"operationMappings" [k!"OPERATION-MAPPINGS"]
   (.node (.node .nil
     k!"outMeasurementSet" [k!"OUT-MEASUREMENT-SET"]
     .nil)
    k!"paddingActivation" [k!"PADDING-ACTIVATION"]
    .nil))
  k!"parameterInstance" [k!"PARAMETER-INSTANCE"]
  (.node (.node (.node .nil
     k!"pduTriggeringRefs" [k!"PDU-TRIGGERING-REF"]
     .nil)
    k!"possibleErrorRefs" [k!"POSSIBLE-ERROR-REF"]
    .nil)
   k!"providedMemoryRef" [k!"PROVIDED-MEMORY-REF"]
   (.node (.node .nil
     k!"ramBlockInitValue" [k!"RAM-BLOCK-INIT-VALUE"]
     .nil)
    k!"rateCorrectionOut" [k!"RATE-CORRECTION-OUT"]
    .nil)))
 k!"receptionPolicies" [k!"RECEPTION-POLICYS"]
 (.node (.node (.node (.node .nil
     k!"refMeasurementSet" [k!"REF-MEASUREMENT-SET"]
     .nil)
    k!"referenceTableRef" [k!"REFERENCE-TABLE-REF"]
    .nil)
   k!"regularExpression" [k!"REGULAR-EXPRESSION"]
   (.node (.node .nil
     k!"requiredArtifacts" [k!"REQUIRED-ARTIFACTS"]
     .nil)
    k!"romBlockInitValue" [k!"ROM-BLOCK-INIT-VALUE"]
    .nil))
  k!"rxIdentifierRange" [k!"RX-IDENTIFIER-RANGE"]
  (.node (.node (.node .nil
     k!"sampleClockPeriod" [k!"SAMPLE-CLOCK-PERIOD"]
     .nil)
    k!"secureTranslation" [k!"SECURE-TRANSLATION"]
    .nil)
   k!"securedAreaLength" [k!"SECURED-AREA-LENGTH"]
   (.node .nil
    k!"securedAreaOffset" [k!"SECURED-AREA-OFFSET"]
    .nil))))

def nameTable74 : Bst (List Key) :=
 (.node (.node (.node (.node (.node .nil
     k!"sensorActuatorRef" [k!"SENSOR-ACTUATOR-REF"]
     .nil)
    k!"serviceIdentifier" [k!"SERVICE-IDENTIFIER"]
    .nil)
   k!"sharedAxisTypeRef" [k!"SHARED-AXIS-TYPE-REF"]
   (.node (.node .nil
     k!"sourceElementRefs" [k!"SOURCE-ELEMENT-REF"]
     .nil)
    k!"swRecordLayoutRef" [k!"SW-RECORD-LAYOUT-REF"]
    .nil))
  k!"symbolicNameProps" [k!"SYMBOLIC-NAME-PROPS"]
  (.node (.node (.node .nil
     k!"symbolicNameValue" [k!"SYMBOLIC-NAME-VALUE"]
     .nil)
    k!"targetRteEventRef" [k!"TARGET-RTE-EVENT-REF"]
    .nil)
   k!"tcpIpIcmpPropsRef" [k!"TCP-IP-ICMP-PROPS"]
   (.node (.node .nil
     k!"textTableMappings" [k!"TEXT-TABLE-MAPPING"]
     .nil)
    k!"translationTarget" [k!"TRANSLATION-TARGET"]
    .nil)))
 k!"transmissionProps" [k!"TRANSMISSION-PROPS"]
 (.node (.node (.node (.node .nil
     k!"upperMultiplicity" [k!"UPPER-MULTIPLICITY"]
     .nil)
    k!"useSmartSensorApi" [k!"USE-SMART-SENSOR-API"]
    .nil)
   k!"usedCodeGenerator" [k!"USED-CODE-GENERATOR"]
   (.node (.node .nil
     k!"validationFormula" [k!"VALIDATION-FORMULA"]
     .nil)
    k!"windowSizeInvalid" [k!"WINDOW-SIZE-INVALID"]
    .nil))
  k!"writeVerification" [k!"WRITE-VERIFICATION"]
  (.node (.node (.node .nil
     k!"writingStrategies" [k!"WRITING-STRATEGYS"]
     .nil)
    k!"writtenReadNvData" [k!"WRITTEN-READ-NV-DATA"]
    .nil)
   k!"arraySizeSemantics" [k!"ARRAY-SIZE-SEMANTICS"]
   (.node .nil
    k!"artifactDescriptor" [k!"ARTIFACT-DESCRIPTOR"]
    .nil))))

def nameTable75 : Bst (List Key) :=
 .node nameTable73 k!"selectorFieldCode" [k!"SELECTOR-FIELD-CODE"] nameTable74

def nameTable76 : Bst (List Key) :=
 .node nameTable72 k!"numberOfMinislots" [k!"NUMBER-OF-MINISLOTS"] nameTable75

def nameTable77 : Bst (List Key) :=
 .node nameTable69 k!"canFdFrameSupport" [k!"CAN-FD-FRAME-SUPPORT"] nameTable76

def nameTable78 : Bst (List Key) :=
 (.node (.node (.node (.node (.node .nil
     k!"blueprintCondition" [k!"BLUEPRINT-CONDITION"]
     .nil)
    k!"bundledConnections" [k!"BUNDLED-CONNECTIONS"]
    .nil)
   k!"busDependentNmEcus" [k!"BUS-DEPENDENT-NM-ECUS"]
   (.node (.node .nil
     k!"calculationFormula" [k!"CALCULATION-FORMULA"]
     .nil)
    k!"callbackHeaderRefs" [k!"CALLBACK-HEADER-REF"]
    .nil))
  k!"canFrameRxBehavior" [k!"CAN-FRAME-RX-BEHAVIOR"]
  (.node (.node (.node .nil
     k!"canFrameTxBehavior" [k!"CAN-FRAME-TX-BEHAVIOR"]
     .nil)
    k!"checkStaticBlockId" [k!"CHECK-STATIC-BLOCK-ID"]
    .nil)
   k!"communicationCycle" [k!"COMMUNICATION-CYCLE"]
   (.node (.node .nil
     k!"compuDenominator.v" [k!"V"]
     .nil)
    k!"containedIPduProps" [k!"CONTAINED-I-PDU-PROPS"]
    .nil)))
 k!"contextElementRefs" [k!"CONTEXT-ELEMENT-REF"]
 (.node (.node (.node (.node .nil
     k!"coupledClusterRefs" [k!"COUPLED-CLUSTER-REF"]
     .nil)
    k!"dataIdNibbleOffset" [k!"DATA-ID-NIBBLE-OFFSET"]
    .nil)
   k!"dataLengthResponse" [k!"DATA-LENGTH-RESPONSE"]
   (.node (.node .nil
     k!"decodingCorrection" [k!"DECODING-CORRECTION"]
     .nil)
    k!"delayCompensationA" [k!"DELAY-COMPENSATION-A"]
    .nil))
  k!"delayCompensationB" [k!"DELAY-COMPENSATION-B"]
  (.node (.node (.node .nil
     k!"destinationContext" [k!"DESTINATION-CONTEXT"]
     .nil)
    k!"destinationUriDefs" [k!"DESTINATION-URI-DEFS"]
    .nil)
   k!"destinationUriRefs" [k!"DESTINATION-URI-REF"]
   (.node (.node .nil
     k!"doIpLogicAddresses" [k!"DO-IP-LOGIC-ADDRESS"]
     .nil)
    k!"ecucQueryStringRef" [k!"ECUC-QUERY-STRING-REF"]
    .nil))))

def nameTable79 : Bst (List Key) :=
 (.node (.node (.node (.node (.node .nil
     k!"expectedAliveCycle" [k!"EXPECTED-ALIVE-CYCLE"]
     .nil)
    k!"frameTriggeringRef" [k!"FRAME-TRIGGERING-REF"]
    .nil)
   k!"generatedArtifacts" [k!"GENERATED-ARTIFACTS"]
   (.node (.node .nil
     k!"headerIdLongHeader" [k!"HEADER-ID-LONG-HEADER"]
     .nil)
    k!"initialDynamicPart" [k!"INITIAL-DYNAMIC-PART"]
    .nil))
  k!"instanceIdentifier" [k!"INSTANCE-IDENTIFIER"]
  (.node (.node (.node .nil
     k!"keepAliveProbesMax" [k!"KEEP-ALIVE-PROBES-MAX"]
     .nil)
    k!"keySlotOnlyEnabled" [k!"KEY-SLOT-ONLY-ENABLED"]
    .nil)
   k!"keySlotUsedForSync" [k!"KEY-SLOT-USED-FOR-SYNC"]
   (.node (.node .nil
     k!"macMulticastGroups" [k!"MAC-MULTICAST-GROUP"]
     .nil)
    k!"maxErrorStateValid" [k!"MAX-ERROR-STATE-VALID"]
    .nil)))
 k!"mcDataInstanceRefs" [k!"MC-DATA-INSTANCE-REF"]
 (.node (.node (.node (.node .nil
     k!"modeSenderPolicies" [k!"MODE-SENDER-POLICYS"]
     .nil)
    k!"multicastThreshold" [k!"MULTICAST-THRESHOLD"]
    .nil)
   k!"networkEndpointRef" [k!"NETWORK-ENDPOINT-REF"]
   (.node (.node .nil
     k!"nmClusterCouplings" [k!"NM-CLUSTER-COUPLINGS"]
     .nil)
    k!"nmWaitBusSleepTime" [k!"NM-WAIT-BUS-SLEEP-TIME"]
    .nil))
  k!"nvBlockDescriptors" [k!"NV-BLOCK-DESCRIPTOR"]
  (.node (.node (.node .nil
     k!"pduToFrameMappings" [k!"PDU-TO-FRAME-MAPPING"]
     .nil)
    k!"physicalRequestRef" [k!"PHYSICAL-REQUEST-REF"]
    .nil)
   k!"providedModeGroups" [k!"PROVIDED-MODE-GROUPS"]
   (.node .nil
    k!"readLocalVariables" [k!"READ-LOCAL-VARIABLES"]
    .nil))))

def nameTable80 : Bst (List Key) :=
 .node nameTable78 k!"enableDeactivation" [k!"ENABLE-DEACTIVATION"] nameTable79

def nameTable81 : Bst (List Key) :=
 (.node (.node (.node (.node (.node .nil
     k!"responseOnEventRef" [k!"RESPONSE-REF"]
     .nil)
    k!"rptEnablerImplType" [k!"RPT-ENABLER-IMPL-TYPE"]
    .nil)
   k!"sdgContentsType.sd" [k!"SD"]
   (.node (.node .nil
     k!"secondModeGroupRef" [k!"SECOND-MODE-GROUP-REF"]
     .nil)
    k!"secondOperationRef" [k!"SECOND-OPERATION-REF"]
    .nil))
  k!"shortNameFragments" [k!"SHORT-NAME-FRAGMENT"]
  (.node (.node (.node .nil
     k!"sleepModeSupported" [k!"SLEEP-MODE-SUPPORTED"]
     .nil)
    k!"staticSlotDuration" [k!"STATIC-SLOT-DURATION"]
    .nil)
   k!"subElementMappings" [k!"SUB-ELEMENT-MAPPING"]
   (.node (.node .nil
     k!"supportingMaterial" [k!"SUPPORTING-MATERIAL"]
     .nil)
    k!"swCalibrationNotes" [k!"SW-CALIBRATION-NOTES"]
    .nil)))
 k!"swDiagnosticsNotes" [k!"SW-DIAGNOSTICS-NOTES"]
 (.node (.node (.node (.node .nil
     k!"swMaintenanceNotes" [k!"SW-MAINTENANCE-NOTES"]
     .nil)
    k!"targetComponentRef" [k!"TARGET-COMPONENT-REF"]
    .nil)
   k!"targetModeGroupRef" [k!"TARGET-MODE-GROUP-REF"]
   (.node (.node .nil
     k!"trcvPwmModeEnabled" [k!"TRCV-PWM-MODE-ENABLED"]
     .nil)
    k!"valueConfigClasses" [k!"VALUE-CONFIG-CLASSES"]
    .nil))
  k!"accessedVariableRef" [k!"ACCESSED-VARIABLE", k!"ACCESSED-VARIABLE-REF"]
  (.node (.node (.node .nil
     k!"activationPointRefs" [k!"ACTIVATION-POINTS"]
     .nil)
    k!"allowHaltDueToClock" [k!"ALLOW-HALT-DUE-TO-CLOCK"]
    .nil)
   k!"applicationEndpoint" [k!"APPLICATION-ENDPOINT"]
   (.node .nil
    k!"artifactDescriptors" [k!"ARTIFACT-DESCRIPTORS"]
    .nil))))

def nameTable82 : Bst (List Key) :=
 (.node (.node (.node (.node (.node .nil
     k!"autosarVariableIRef" [k!"AUTOSAR-VARIABLE-IREF"]
     .nil)
    k!"clusterDriftDamping" [k!"CLUSTER-DRIFT-DAMPING"]
    .nil)
   k!"collectionSemantics" [k!"COLLECTION-SEMANTICS"]
   (.node (.node .nil
     k!"compuInternalToPhys" [k!"COMPU-INTERNAL-TO-PHYS"]
     .nil)
    k!"compuPhysToInternal" [k!"COMPU-PHYS-TO-INTERNAL"]
    .nil))
  k!"consumedEventGroups" [k!"CONSUMED-EVENT-GROUP"]
  (.node (.node (.node .nil
     k!"contextComponentRef" [k!"CONTEXT-COMPONENT-REF"]
     .nil)
    k!"couplingPortDetails" [k!"COUPLING-PORT-DETAILS"]
    .nil)
   k!"dataTransformations" [k!"DATA-TRANSFORMATION"]
   (.node (.node .nil
     k!"dataTypeMappingRefs" [k!"DATA-TYPE-MAPPING-REF"]
     .nil)
    k!"disabledInModeIRefs" [k!"DISABLED-IN-MODE-IREF"]
    .nil)))
 k!"displayPresentation" [k!"DISPLAY-PRESENTATION"]
 (.node (.node (.node (.node .nil
     k!"dropNotRequestedNad" [k!"DROP-NOT-REQUESTED-NAD"]
     .nil)
    k!"dynamicallyAssigned" [k!"DYNAMICALLY-ASSIGNED"]
    .nil)
   k!"ecuResourceMappings" [k!"ECU-RESOURCE-MAPPINGS"]
   (.node (.node .nil
     k!"ecucQueryExpression" [k!"ECUC-QUERY-EXPRESSION"]
     .nil)
    k!"ecucValidationConds" [k!"ECUC-VALIDATION-CONDS"]
    .nil))
  k!"errorReactionPolicy" [k!"ERROR-REACTION-POLICY"]
  (.node (.node (.node .nil
     k!"executableEntityRef" [k!"EXECUTABLE-ENTITY-REF"]
     .nil)
    k!"filteringDebouncing" [k!"FILTERING-DEBOUNCING"]
    .nil)
   k!"handleNeverReceived" [k!"HANDLE-NEVER-RECEIVED"]
   (.node .nil
    k!"hardwareElementRefs" [k!"HARDWARE-ELEMENT-REF"]
    .nil))))

def nameTable83 : Bst (List Key) :=
 .node nameTable81 k!"authenticationProps" [k!"AUTHENTICATION-PROPSS"] nameTable82

def nameTable84 : Bst (List Key) :=
 .node nameTable80 k!"requiredModeGroups" [k!"REQUIRED-MODE-GROUPS"] nameTable83

def nameTable85 : Bst (List Key) :=
 (.node (.node (.node (.node (.node .nil
     k!"hwAttributeLiterals" [k!"HW-ATTRIBUTE-LITERALS"]
     .nil)
    k!"implementedEntryRef" [k!"IMPLEMENTED-ENTRY-REF"]
    .nil)
   k!"includedLibraryRefs" [k!"INCLUDED-LIBRARY-REF"]
   (.node (.node .nil
     k!"includedVariantRefs" [k!"INCLUDED-VARIANT-REF"]
     .nil)
    k!"initialFindBehavior" [k!"INITIAL-FIND-BEHAVIOR"]
    .nil))
  k!"loadBalancingWeight" [k!"LOAD-BALANCING-WEIGHT"]
  (.node (.node (.node .nil
     k!"macMulticastAddress" [k!"MAC-MULTICAST-ADDRESS"]
     .nil)
    k!"macroInitialOffsetA" [k!"MACRO-INITIAL-OFFSET-A"]
    .nil)
   k!"macroInitialOffsetB" [k!"MACRO-INITIAL-OFFSET-B"]
   (.node (.node .nil
     k!"maxDeltaCounterInit" [k!"MAX-DELTA-COUNTER-INIT"]
     .nil)
    k!"maxNumberOfElements" [k!"MAX-NUMBER-OF-ELEMENTS"]
    .nil)))
 k!"mcDataAccessDetails" [k!"MC-DATA-ACCESS-DETAILS"]
 (.node (.node (.node (.node .nil
     k!"mcVariableInstances" [k!"MC-VARIABLE-INSTANCES"]
     .nil)
    k!"messageLinkPosition" [k!"MESSAGE-LINK-POSITION"]
    .nil)
   k!"microInitialOffsetA" [k!"MICRO-INITIAL-OFFSET-A"]
   (.node (.node .nil
     k!"microInitialOffsetB" [k!"MICRO-INITIAL-OFFSET-B"]
     .nil)
    k!"minimumSendInterval" [k!"MINIMUM-SEND-INTERVAL"]
    .nil))
  k!"modePortAnnotations" [k!"MODE-PORT-ANNOTATION"]
  (.node (.node (.node .nil
     k!"modeRequestTypeMaps" [k!"MODE-REQUEST-TYPE-MAP"]
     .nil)
    k!"networkEndpointRefs" [k!"NETWORK-ENDPOINT-REF"]
    .nil)
   k!"nmComControlEnabled" [k!"NM-COM-CONTROL-ENABLED"]
   (.node .nil
    k!"nmRepeatMessageTime" [k!"NM-REPEAT-MESSAGE-TIME"]
    .nil))))

def nameTable86 : Bst (List Key) :=
 (.node (.node (.node (.node (.node .nil
     k!"numberOfRepetitions" [k!"NUMBER-OF-REPETITIONS"]
     .nil)
    k!"numberOfStaticSlots" [k!"NUMBER-OF-STATIC-SLOTS"]
    .nil)
   k!"nvBlockDataMappings" [k!"NV-BLOCK-DATA-MAPPING"]
   (.node (.node .nil
     k!"offsetCorrectionOut" [k!"OFFSET-CORRECTION-OUT"]
     .nil)
    k!"payloadLengthStatic" [k!"PAYLOAD-LENGTH-STATIC"]
    .nil))
  k!"perInstanceMemories" [k!"PER-INSTANCE-MEMORY"]
  (.node (.node (.node .nil
     k!"programmingLanguage" [k!"PROGRAMMING-LANGUAGE"]
     .nil)
    k!"refinedModuleDefRef" [k!"REFINED-MODULE-DEF-REF"]
    .nil)
   k!"regeneratedPriority" [k!"REGENERATED-PRIORITY"]
   (.node (.node .nil
     k!"resourceConsumption" [k!"RESOURCE-CONSUMPTION"]
     .nil)
    k!"resultingProperties" [k!"RESULTING-PROPERTIES"]
    .nil)))
 k!"rptExecutionControl" [k!"RPT-EXECUTION-CONTROL"]
 (.node (.node (.node (.node .nil
     k!"rptPreparationLevel" [k!"RPT-PREPARATION-LEVEL"]
     .nil)
    k!"runnableEntityIRefs" [k!"RUNNABLE-ENTITY-IREF"]
    .nil)
   k!"samplesPerMicrotick" [k!"SAMPLES-PER-MICROTICK"]
   (.node (.node .nil
     k!"sdgContentsType.sdf" [k!"SDF"]
     .nil)
    k!"sdgContentsType.sdg" [k!"SDG"]
    .nil))
  k!"sectionNamePrefixes" [k!"SECTION-NAME-PREFIX"]
  (.node (.node (.node .nil
     k!"selectorFieldLength" [k!"SELECTOR-FIELD-LENGTH"]
     .nil)
    k!"serviceDependencies" [k!"SERVICE-DEPENDENCYS"]
    .nil)
   k!"swBitRepresentation" [k!"SW-BIT-REPRESENTATION"]
   (.node .nil
    k!"swCalibrationAccess" [k!"SW-CALIBRATION-ACCESS"]
    .nil))))

def nameTable87 : Bst (List Key) :=
 .node nameTable85 k!"nmVectorEarlyUpdate" [k!"NM-VECTOR-EARLY-UPDATE"] nameTable86

def nameTable88 : Bst (List Key) :=
 (.node (.node (.node (.node (.node .nil
     k!"swRecordLayoutGroup" [k!"SW-RECORD-LAYOUT-GROUP"]
     .nil)
    k!"swRecordLayoutVAxis" [k!"SW-RECORD-LAYOUT-V-AXIS"]
    .nil)
   k!"swRecordLayoutVProp" [k!"SW-RECORD-LAYOUT-V-PROP"]
   (.node (.node .nil
     k!"swServiceImplPolicy" [k!"SW-SERVICE-IMPL-POLICY"]
     .nil)
    k!"syncFrameIdCountMax" [k!"SYNC-FRAME-ID-COUNT-MAX"]
    .nil))
  k!"timing_requirements" [k!"TIMING-REQUIREMENTS"]
  (.node (.node (.node .nil
     k!"transformationProps" [k!"TRANSFORMATION-PROPS"]
     .nil)
    k!"transmissionTrigger" [k!"TRANSMISSION-TRIGGER"]
    .nil)
   k!"useCRCCompMechanism" [k!"USE-CRC-COMP-MECHANISM"]
   (.node (.node .nil
     k!"variableAccessIRefs" [k!"VARIABLE-ACCESS-IREF"]
     .nil)
    k!"acceptedStartupRange" [k!"ACCEPTED-STARTUP-RANGE"]
    .nil)))
 k!"allowPassiveToActive" [k!"ALLOW-PASSIVE-TO-ACTIVE"]
 (.node (.node (.node (.node .nil
     k!"autosarParameterIRef" [k!"AUTOSAR-PARAMETER-IREF"]
     .nil)
    k!"contextComponentRefs" [k!"CONTEXT-COMPONENT-REF"]
    .nil)
   k!"denominatorCondition" [k!"DENOMINATOR-CONDITION"]
   (.node (.node .nil
     k!"destinationUriPolicy" [k!"DESTINATION-URI-POLICY"]
     .nil)
    k!"disableEndToEndCheck" [k!"DISABLE-END-TO-END-CHECK"]
    .nil))
  k!"doIpSourceAddressRef" [k!"DO-IP-SOURCE-ADDRESS-REF"]
  (.node (.node (.node .nil
     k!"doIpTargetAddressRef" [k!"DO-IP-TARGET-ADDRESS-REF"]
     .nil)
    k!"documentationContent" [k!"DOCUMENTATION-CONTENT"]
    .nil)
   k!"dpgRequiresCoherency" [k!"DPG-REQUIRES-COHERENCYS"]
   (.node .nil
    k!"dynamicSlotIdlePhase" [k!"DYNAMIC-SLOT-IDLE-PHASE"]
    .nil))))

def nameTable89 : Bst (List Key) :=
 (.node (.node (.node (.node (.node .nil
     k!"encapsulatedEntryRef" [k!"ENCAPSULATED-ENTRY-REF"]
     .nil)
    k!"eventGroupIdentifier" [k!"EVENT-GROUP-IDENTIFIER"]
    .nil)
   k!"executableEntityRefs" [k!"EXECUTABLE-ENTITY-REF"]
   (.node (.node .nil
     k!"executionContextRefs" [k!"EXECUTION-CONTEXT-REF"]
     .nil)
    k!"externRateCorrection" [k!"EXTERN-RATE-CORRECTION"]
    .nil))
  k!"freshnessValueLength" [k!"FRESHNESS-VALUE-LENGTH"]
  (.node (.node (.node .nil
     k!"hwElementConnections" [k!"HW-ELEMENT-CONNECTIONS"]
     .nil)
    k!"iSignalToPduMappings" [k!"I-SIGNAL-TO-PDU-MAPPINGS"]
    .nil)
   k!"implementedEntryRefs" [k!"PROVIDED-ENTRYS"]
   (.node (.node .nil
     k!"initialDelayMaxValue" [k!"INITIAL-DELAY-MAX-VALUE"]
     .nil)
    k!"initialDelayMinValue" [k!"INITIAL-DELAY-MIN-VALUE"]
    .nil)))
 k!"initialOfferBehavior" [k!"INITIAL-OFFER-BEHAVIOR"]
 (.node (.node (.node (.node .nil
     k!"inputVariableTypeRef" [k!"INPUT-VARIABLE-TYPE-REF"]
     .nil)
    k!"invalidationPolicies" [k!"INVALIDATION-POLICY"]
    .nil)
   k!"luminousIntensityExp" [k!"LUMINOUS-INTENSITY-EXP"]
   (.node (.node .nil
     k!"managedModeGroupRefs" [k!"MANAGED-MODE-GROUPS"]
     .nil)
    k!"matchingCriterionRef" [k!"MATCHING-CRITERION-REF"]
    .nil))
  k!"maxErrorStateInvalid" [k!"MAX-ERROR-STATE-INVALID"]
  (.node (.node (.node .nil
     k!"maximumExecutionTime" [k!"MAXIMUM-EXECUTION-TIME"]
     .nil)
    k!"mcDataInstanceVarRef" [k!"MC-DATA-INSTANCE-VAR-REF"]
    .nil)
   k!"mcParameterInstances" [k!"MC-PARAMETER-INSTANCES"]
   (.node .nil
    k!"minimumExecutionTime" [k!"MINIMUM-EXECUTION-TIME"]
    .nil))))

def nameTable90 : Bst (List Key) :=
 .node nameTable88 k!"ecuCommPortInstances" [k!"ECU-COMM-PORT-INSTANCES"] nameTable89

def nameTable91 : Bst (List Key) :=
 .node nameTable87 k!"swGenericAxisParams" [k!"SW-GENERIC-AXIS-PARAM"] nameTable90

def nameTable92 : Bst (List Key) :=
 .node nameTable84 k!"headerIdShortHeader" [k!"HEADER-ID-SHORT-HEADER"] nameTable91

def nameTable93 : Bst (List Key) :=
 .node nameTable77 k!"assignmentPriority" [k!"ASSIGNMENT-PRIORITY"] nameTable92

def nameTable94 : Bst (List Key) :=
 (.node (.node (.node (.node (.node .nil
     k!"moduleDescriptionRef" [k!"MODULE-DESCRIPTION-REF"]
     .nil)
    k!"nmCarWakeUpRxEnabled" [k!"NM-CAR-WAKE-UP-RX-ENABLED"]
    .nil)
   k!"nmChannelSleepMaster" [k!"NM-CHANNEL-SLEEP-MASTER"]
   (.node (.node .nil
     k!"nmMessageTimeoutTime" [k!"NM-MESSAGE-TIMEOUT-TIME"]
     .nil)
    k!"nmPassiveModeEnabled" [k!"NM-PASSIVE-MODE-ENABLED"]
    .nil))
  k!"nominalExecutionTime" [k!"NOMINAL-EXECUTION-TIME"]
  (.node (.node (.node .nil
     k!"pduCollectionTimeout" [k!"PDU-COLLECTION-TIMEOUT"]
     .nil)
    k!"pduCollectionTrigger" [k!"PDU-COLLECTION-TRIGGER"]
    .nil)
   k!"physicalDimensionRef" [k!"PHYSICAL-DIMENSION-REF"]
   (.node (.node .nil
     k!"pncPrepareSleepTimer" [k!"PNC-PREPARE-SLEEP-TIMER"]
     .nil)
    k!"pncSynchronousWakeup" [k!"PNC-SYNCHRONOUS-WAKEUP"]
    .nil)))
 k!"postBuildVariantUsed" [k!"POST-BUILD-VARIANT-USED"]
 (.node (.node (.node (.node .nil
     k!"providedModeGroupRef" [k!"PROVIDED-MODE-GROUP-REF"]
     .nil)
    k!"providedOuterPortRef" [k!"PROVIDED-OUTER-PORT-REF"]
    .nil)
   k!"regRequiresStability" [k!"REG-REQUIRES-STABILITYS"]
   (.node (.node .nil
     k!"representedPortGroup" [k!"REPRESENTED-PORT-GROUP-REF"]
     .nil)
    k!"requestResponseDelay" [k!"REQUEST-RESPONSE-DELAY"]
    .nil))
  k!"requiredOuterPortRef" [k!"REQUIRED-OUTER-PORT-REF"]
  (.node (.node (.node .nil
     k!"resistantToChangedSw" [k!"RESISTANT-TO-CHANGED-SW"]
     .nil)
    k!"rootDataPrototypeRef" [k!"ROOT-DATA-PROTOTYPE-REF"]
    .nil)
   k!"swDataDependencyArgs" [k!"SW-DATA-DEPENDENCY-ARGS"]
   (.node (.node .nil
     k!"swIntendedResolution" [k!"SW-INTENDED-RESOLUTION"]
     .nil)
    k!"swPointerTargetProps" [k!"SW-POINTER-TARGET-PROPS"]
    .nil))))

def nameTable95 : Bst (List Key) :=
 (.node (.node (.node (.node (.node .nil
     k!"synchronizedTriggers" [k!"SYNCHRONIZED-TRIGGERS"]
     .nil)
    k!"systemSignalGroupRef" [k!"SYSTEM-SIGNAL-GROUP-REF"]
    .nil)
   k!"targetDataElementRef" [k!"TARGET-DATA-ELEMENT-REF"]
   (.node (.node .nil
     k!"transformerChainRefs" [k!"TRANSFORMER-CHAIN-REF"]
     .nil)
    k!"useAuthDataFreshness" [k!"USE-AUTH-DATA-FRESHNESS"]
    .nil))
  k!"usedParameterElement" [k!"USED-PARAMETER-ELEMENT"]
  (.node (.node (.node .nil
     k!"valueAxisDataTypeRef" [k!"VALUE-AXIS-DATA-TYPE-REF"]
     .nil)
    k!"accessedModeGroupRefs" [k!"ACCESSED-MODE-GROUPS"]
    .nil)
   k!"additionalInformation" [k!"ADDITIONAL-INFORMATION"]
   (.node (.node .nil
     k!"admitWithoutMessageId" [k!"ADMIT-WITHOUT-MESSAGE-ID"]
     .nil)
    k!"authenticationRetries" [k!"AUTHENTICATION-RETRIES"]
    .nil)))
 k!"bestCaseExecutionTime" [k!"BEST-CASE-EXECUTION-TIME"]
 (.node (.node (.node (.node .nil
     k!"bswModuleDependencies" [k!"BSW-MODULE-DEPENDENCY"]
     .nil)
    k!"bulkNvDataDescriptors" [k!"BULK-NV-DATA-DESCRIPTOR"]
    .nil)
   k!"contextCompositionRef" [k!"CONTEXT-COMPOSITION-REF"]
   (.node (.node .nil
     k!"contextLimitationRefs" [k!"CONTEXT-LIMITATION-REF"]
     .nil)
    k!"cycleTimeMainFunction" [k!"CYCLE-TIME-MAIN-FUNCTION"]
    .nil))
  k!"dataTransformationRef" [k!"DATA-TRANSFORMATION-REF"]
  (.node (.node (.node .nil
     k!"diagnosticValueAccess" [k!"DIAGNOSTIC-VALUE-ACCESS"]
     .nil)
    k!"errorSignalingEnabled" [k!"ERROR-SIGNALING-ENABLED"]
    .nil)
   k!"eventControlledTiming" [k!"EVENT-CONTROLLED-TIMING"]
   (.node .nil
    k!"eventGroupControlType" [k!"EVENT-GROUP-CONTROL-TYPE"]
    .nil))))

def nameTable96 : Bst (List Key) :=
 .node nameTable94 k!"swRecordLayoutVIndex" [k!"SW-RECORD-LAYOUT-V-INDEX"] nameTable95

def nameTable97 : Bst (List Key) :=
 (.node (.node (.node (.node (.node .nil
     k!"firstDataPrototypeRef" [k!"FIRST-DATA-PROTOTYPE-REF"]
     .nil)
    k!"functionalRequestRefs" [k!"FUNCTIONAL-REQUEST-REF"]
    .nil)
   k!"hardwareConfiguration" [k!"HARDWARE-CONFIGURATION"]
   (.node (.node .nil
     k!"hwPinGroupConnections" [k!"HW-PIN-GROUP-CONNECTION"]
     .nil)
    k!"iSignalToIPduMappings" [k!"I-SIGNAL-TO-I-PDU-MAPPING"]
    .nil))
  k!"iSignalTriggeringRefs" [k!"I-SIGNAL-TRIGGERING-REF"]
  (.node (.node (.node .nil
     k!"initialRepetitionsMax" [k!"INITIAL-REPETITIONS-MAX"]
     .nil)
    k!"ipAddressPrefixLength" [k!"IP-ADDRESS-PREFIX-LENGTH"]
    .nil)
   k!"keySlotUsedForStartUp" [k!"KEY-SLOT-USED-FOR-START-UP"]
   (.node (.node .nil
     k!"loadBalancingPriority" [k!"LOAD-BALANCING-PRIORITY"]
     .nil)
    k!"modeUserErrorBehavior" [k!"MODE-USER-ERROR-BEHAVIOR"]
    .nil)))
 k!"networkRepresentation" [k!"NETWORK-REPRESENTATION"]
 (.node (.node (.node (.node .nil
     k!"nmRepeatMsgIndEnabled" [k!"NM-REPEAT-MSG-IND-ENABLED"]
     .nil)
    k!"nvDataPortAnnotations" [k!"NV-DATA-PORT-ANNOTATION"]
    .nil)
   k!"offsetCorrectionStart" [k!"OFFSET-CORRECTION-START"]
   (.node (.node .nil
     k!"perInstanceParameters" [k!"PER-INSTANCE-PARAMETERS"]
     .nil)
    k!"portInterfaceMappings" [k!"PORT-INTERFACE-MAPPINGS"]
    .nil))
  k!"postBuildVariantValue" [k!"POST-BUILD-VARIANT-VALUE"]
  (.node (.node (.node .nil
     k!"providedInterfaceTRef" [k!"PROVIDED-INTERFACE-TREF"]
     .nil)
    k!"ramBlockStatusControl" [k!"RAM-BLOCK-STATUS-CONTROL"]
    .nil)
   k!"recordElementMappings" [k!"RECORD-ELEMENT-MAPPINGS"]
   (.node .nil
    k!"requiredInterfaceTRef" [k!"REQUIRED-INTERFACE-TREF"]
    .nil))))

def nameTable98 : Bst (List Key) :=
 (.node (.node (.node (.node (.node .nil
     k!"rptExecutableEntities" [k!"RPT-EXECUTABLE-ENTITY"]
     .nil)
    k!"swCalprmAxisTypeProps" [k!"SW-AXIS-GROUPED", k!"SW-AXIS-INDIVIDUAL"]
    .nil)
   k!"swComparisonVariables" [k!"SW-COMPARISON-VARIABLES"]
   (.node (.node .nil
     k!"swInterpolationMethod" [k!"SW-INTERPOLATION-METHOD"]
     .nil)
    k!"swRecordLayoutGroupTo" [k!"SW-RECORD-LAYOUT-GROUP-TO"]
    .nil))
  k!"swValueBlockSizeMults" [k!"SW-VALUE-BLOCK-SIZE-MULTS"]
  (.node (.node (.node .nil
     k!"swcModeSwitchEventRef" [k!"SWC-MODE-SWITCH-EVENT-REF"]
     .nil)
    k!"toleratedFailedCycles" [k!"TOLERATED-FAILED-CYCLES"]
    .nil)
   k!"topic1.msrQueryTopic1" [k!"MSR-QUERY-TOPIC-1"]
   (.node (.node .nil
     k!"upstreamReferenceIRef" [k!"UPSTREAM-REFERENCE-IREF"]
     .nil)
    k!"useFreshnessTimestamp" [k!"USE-FRESHNESS-TIMESTAMP"]
    .nil)))
 k!"variationPointProxies" [k!"VARIATION-POINT-PROXY"]
 (.node (.node (.node (.node .nil
     k!"vehicleSystemInstance" [k!"VEHICLE-SYSTEM-INSTANCE"]
     .nil)
    k!"writtenLocalVariables" [k!"WRITTEN-LOCAL-VARIABLES"]
    .nil)
   k!"allowDynamicLSduLength" [k!"ALLOW-DYNAMIC-L-SDU-LENGTH"]
   (.node (.node .nil
     k!"applicationDataTypeRef" [k!"APPLICATION-DATA-TYPE-REF"]
     .nil)
    k!"applicationEndpointRef" [k!"APPLICATION-ENDPOINT-REF"]
    .nil))
  k!"authenticationPropsRef" [k!"AUTHENTICATION-PROPS-REF"]
  (.node (.node (.node .nil
     k!"bswModuleDocumentation" [k!"BSW-MODULE-DOCUMENTATIONS"]
     .nil)
    k!"buildActionManifestRef" [k!"BUILD-ACTION-MANIFEST-REF"]
    .nil)
   k!"communicationDirection" [k!"COMMUNICATION-DIRECTION"]
   (.node .nil
    k!"consumedEventGroupRefs" [k!"CONSUMED-EVENT-GROUP-REF"]
    .nil))))

def nameTable99 : Bst (List Key) :=
 .node nameTable97 k!"routingActivationType" [k!"ROUTING-ACTIVATION-TYPE"] nameTable98

def nameTable100 : Bst (List Key) :=
 .node nameTable96 k!"exclusiveAreaPolicies" [k!"EXCLUSIVE-AREA-POLICYS"] nameTable99

def nameTable101 : Bst (List Key) :=
 (.node (.node (.node (.node (.node .nil
     k!"estimatedExecutionTime" [k!"ESTIMATED-EXECUTION-TIME"]
     .nil)
    k!"externOffsetCorrection" [k!"EXTERN-OFFSET-CORRECTION"]
    .nil)
   k!"freshnessValueTxLength" [k!"FRESHNESS-VALUE-TX-LENGTH"]
   (.node (.node .nil
     k!"handleOutOfRangeStatus" [k!"HANDLE-OUT-OF-RANGE-STATUS"]
     .nil)
    k!"infrastructureServices" [k!"INFRASTRUCTURE-SERVICES"]
    .nil))
  k!"lastEgressSchedulerRef" [k!"LAST-EGRESS-SCHEDULER-REF"]
  (.node (.node (.node .nil
     k!"maxNoNewOrRepeatedData" [k!"MAX-NO-NEW-OR-REPEATED-DATA"]
     .nil)
    k!"memorySectionLocations" [k!"MEMORY-SECTION-LOCATION"]
    .nil)
   k!"multicastConnectorRefs" [k!"MULTICAST-CONNECTOR-REF"]
   (.node (.node .nil
     k!"nmImmediateNmCycleTime" [k!"NM-IMMEDIATE-NM-CYCLE-TIME"]
     .nil)
    k!"nmNodeDetectionEnabled" [k!"NM-NODE-DETECTION-ENABLED"]
    .nil)))
 k!"pduCollectionSemantics" [k!"PDU-COLLECTION-SEMANTICS"]
 (.node (.node (.node (.node .nil
     k!"possibleErrorReactions" [k!"POSSIBLE-ERROR-REACTION"]
     .nil)
    k!"requiredGeneratorTools" [k!"REQUIRED-GENERATOR-TOOLS"]
    .nil)
   k!"rptServicePointPreRefs" [k!"RPT-SERVICE-POINT-PRE-REF"]
   (.node (.node .nil
     k!"rxSecurityVerification" [k!"RX-SECURITY-VERIFICATION"]
     .nil)
    k!"schedulerNamePrefixRef" [k!"SCHEDULER-NAME-PREFIX-REF"]
    .nil))
  k!"sdServerTimerConfigRef" [k!"SD-SERVER-TIMER-CONFIGS"]
  (.node (.node (.node .nil
     k!"secondDataPrototypeRef" [k!"SECOND-DATA-PROTOTYPE-REF"]
     .nil)
    k!"selectorFieldByteOrder" [k!"SELECTOR-FIELD-BYTE-ORDER"]
    .nil)
   k!"swSystemconstantValues" [k!"SW-SYSTEMCONSTANT-VALUES"]
   (.node (.node .nil
     k!"synchronizedModeGroups" [k!"SYNCHRONIZED-MODE-GROUPS"]
     .nil)
    k!"targetDataPrototypeRef" [k!"TARGET-DATA-PROTOTYPE-REF"]
    .nil))))

def nameTable102 : Bst (List Key) :=
 (.node (.node (.node (.node (.node .nil
     k!"triggerPortAnnotations" [k!"TRIGGER-PORT-ANNOTATION"]
     .nil)
    k!"upperHeaderBitsToShift" [k!"UPPER-HEADER-BITS-TO-SHIFT"]
    .nil)
   k!"useAsCryptographicIPdu" [k!"USE-AS-CRYPTOGRAPHIC-I-PDU"]
   (.node (.node .nil
     k!"usesEndToEndProtection" [k!"USES-END-TO-END-PROTECTION"]
     .nil)
    k!"wakeUpOverBusSupported" [k!"WAKE-UP-OVER-BUS-SUPPORTED"]
    .nil))
  k!"worstCaseExecutionTime" [k!"WORST-CASE-EXECUTION-TIME"]
  (.node (.node (.node .nil
     k!"_nmSynchronizingNetwork" [k!"NM-SYNCHRONIZING-NETWORK"]
     .nil)
    k!"arbitraryAddressCapable" [k!"ARBITRARY-ADDRESS-CAPABLE"]
    .nil)
   k!"authDataFreshnessLength" [k!"AUTH-DATA-FRESHNESS-LENGTH"]
   (.node (.node .nil
     k!"canControllerAttributes" [k!"CAN-CONTROLLER-ATTRIBUTES"]
     .nil)
    k!"chapter.msrQueryChapter" [k!"MSR-QUERY-CHAPTER"]
    .nil)))
 k!"clearFromValidToInvalid" [k!"CLEAR-FROM-VALID-TO-INVALID"]
 (.node (.node (.node (.node .nil
     k!"clientServerAnnotations" [k!"CLIENT-SERVER-ANNOTATION"]
     .nil)
    k!"communicationClusterRef" [k!"COMMUNICATION-CLUSTER-REF"]
    .nil)
   k!"contextPortPrototypeRef" [k!"CONTEXT-PORT-PROTOTYPE-REF"]
   (.node (.node .nil
     k!"dataPrototypeGroupIRefs" [k!"DATA-PROTOTYPE-GROUP-IREF"]
     .nil)
    k!"delegatedPortAnnotation" [k!"DELEGATED-PORT-ANNOTATION"]
    .nil))
  k!"dynamicArraySizeProfile" [k!"DYNAMIC-ARRAY-SIZE-PROFILE"]
  (.node (.node (.node .nil
     k!"dynamicPartAlternatives" [k!"DYNAMIC-PART-ALTERNATIVE"]
     .nil)
    k!"ecuExtractReferenceIRef" [k!"ECU-EXTRACT-REFERENCE-IREF"]
    .nil)
   k!"iPduTimingSpecification" [k!"I-PDU-TIMING-SPECIFICATIONS"]
   (.node .nil
    k!"implicitDataAccessIRefs" [k!"IMPLICIT-DATA-ACCESS-IREF"]
    .nil))))

def nameTable103 : Bst (List Key) :=
 .node nameTable101 k!"tranceiverStandbyDelay" [k!"TRANCEIVER-STANDBY-DELAY"] nameTable102

def nameTable104 : Bst (List Key) :=
 (.node (.node (.node (.node (.node .nil
     k!"maximumTransmissionUnit" [k!"MAXIMUM-TRANSMISSION-UNIT"]
     .nil)
    k!"modeDeclarationMappings" [k!"MODE-DECLARATION-MAPPING"]
    .nil)
   k!"nmRemoteSleepIndEnabled" [k!"NM-REMOTE-SLEEP-IND-ENABLED"]
   (.node (.node .nil
     k!"nmStateChangeIndEnabled" [k!"NM-STATE-CHANGE-IND-ENABLED"]
     .nil)
    k!"postBuildValueAccessRef" [k!"POST-BUILD-VALUE-ACCESS-REF"]
    .nil))
  k!"postBuildVariantSupport" [k!"POST-BUILD-VARIANT-SUPPORT"]
  (.node (.node (.node .nil
     k!"resetToDefaultSupported" [k!"RESET-TO-DEFAULT-SUPPORTED"]
     .nil)
    k!"rootSoftwareComposition" [k!"ROOT-SOFTWARE-COMPOSITIONS"]
    .nil)
   k!"rptServicePointPostRefs" [k!"RPT-SERVICE-POINT-POST-REF"]
   (.node (.node .nil
     k!"sdgContentsType.sdxRefs" [k!"SDX-REF"]
     .nil)
    k!"softwareCompositionTRef" [k!"SOFTWARE-COMPOSITION-TREF"]
    .nil)))
 k!"supportedConfigVariants" [k!"SUPPORTED-CONFIG-VARIANT"]
 (.node (.node (.node (.node .nil
     k!"swDataDependencyFormula" [k!"SW-DATA-DEPENDENCY-FORMULA"]
     .nil)
    k!"swRecordLayoutGroupAxis" [k!"SW-RECORD-LAYOUT-GROUP-AXIS"]
    .nil)
   k!"swRecordLayoutGroupFrom" [k!"SW-RECORD-LAYOUT-GROUP-FROM"]
   (.node (.node .nil
     k!"swRecordLayoutGroupStep" [k!"SW-RECORD-LAYOUT-GROUP-STEP"]
     .nil)
    k!"targetRunnableEntityRef" [k!"TARGET-RUNNABLE-ENTITY-REF"]
    .nil))
  k!"targetVariableAccessRef" [k!"TARGET-VARIABLE-ACCESS-REF"]
  (.node (.node (.node .nil
     k!"topicContent.msrQueryP1" [k!"MSR-QUERY-P1"]
     .nil)
    k!"tpAddressExtensionValue" [k!"TP-ADDRESS-EXTENSION-VALUE"]
    .nil)
   k!"transmissionAcknowledge" [k!"TRANSMISSION-ACKNOWLEDGE"]
   (.node .nil
    k!"averageMemoryConsumption" [k!"AVERAGE-MEMORY-CONSUMPTION"]
    .nil))))

def nameTable105 : Bst (List Key) :=
 (.node (.node (.node (.node (.node .nil
     k!"channelSynchronousWakeup" [k!"CHANNEL-SYNCHRONOUS-WAKEUP"]
     .nil)
    k!"configElementDefLocalRef" [k!"CONFIG-ELEMENT-DEF-LOCAL-REF"]
    .nil)
   k!"constantValueMappingRefs" [k!"CONSTANT-VALUE-MAPPING-REF"]
   (.node (.node .nil
     k!"consumedServiceInstances" [k!"CONSUMED-SERVICE-INSTANCE"]
     .nil)
    k!"contextDataPrototypeRefs" [k!"CONTEXT-DATA-PROTOTYPE-REF"]
    .nil))
  k!"dataReceivePointByValues" [k!"DATA-RECEIVE-POINT-BY-VALUES"]
  (.node (.node (.node .nil
     k!"diagnosticConnectionRefs" [k!"DIAGNOSTIC-CONNECTION-REF"]
     .nil)
    k!"externalTriggeringPoints" [k!"EXTERNAL-TRIGGERING-POINT"]
    .nil)
   k!"formalBlueprintGenerator" [k!"FORMAL-BLUEPRINT-GENERATOR"]
   (.node (.node .nil
     k!"functionPrototypeEmitter" [k!"FUNCTION-PROTOTYPE-EMITTER"]
     .nil)
    k!"internalTriggeringPoints" [k!"INTERNAL-TRIGGERING-POINTS"]
    .nil)))
 k!"maximumMemoryConsumption" [k!"MAXIMUM-MEMORY-CONSUMPTION"]
 (.node (.node (.node (.node .nil
     k!"minimumMemoryConsumption" [k!"MINIMUM-MEMORY-CONSUMPTION"]
     .nil)
    k!"modeManagerErrorBehavior" [k!"MODE-MANAGER-ERROR-BEHAVIOR"]
    .nil)
   k!"networkEndpointAddresses" [k!"NETWORK-ENDPOINT-ADDRESSES"]
   (.node (.node .nil
     k!"nmBusloadReductionActive" [k!"NM-BUSLOAD-REDUCTION-ACTIVE"]
     .nil)
    k!"nmPduRxIndicationEnabled" [k!"NM-PDU-RX-INDICATION-ENABLED"]
    .nil))
  k!"parameterPortAnnotations" [k!"PARAMETER-PORT-ANNOTATION"]
  (.node (.node (.node .nil
     k!"payloadPreambleIndicator" [k!"PAYLOAD-PREAMBLE-INDICATOR"]
     .nil)
    k!"providedServiceInstances" [k!"PROVIDED-SERVICE-INSTANCE"]
    .nil)
   k!"remoteUnicastAddressRefs" [k!"REMOTE-UNICAST-ADDRESSS"]
   (.node .nil
    k!"rootDataPrototypeInCsRef" [k!"ROOT-DATA-PROTOTYPE-IN-CS"]
    .nil))))

def nameTable106 : Bst (List Key) :=
 .node nameTable104 k!"canBeInvokedConcurrently" [k!"CAN-BE-INVOKED-CONCURRENTLY"] nameTable105

def nameTable107 : Bst (List Key) :=
 .node nameTable103 k!"localUnicastAddressRefs" [k!"LOCAL-UNICAST-ADDRESSS"] nameTable106

def nameTable108 : Bst (List Key) :=
 .node nameTable100 k!"dataTransformationKind" [k!"DATA-TRANSFORMATION-KIND"] nameTable107

def nameTable109 : Bst (List Key) :=
 (.node (.node (.node (.node (.node .nil
     k!"runtimePortConfiguration" [k!"RUNTIME-PORT-CONFIGURATION"]
     .nil)
    k!"sdgContentsType.sdxfRefs" [k!"SDXF"]
    .nil)
   k!"secureCommunicationProps" [k!"SECURE-COMMUNICATION-PROPS"]
   (.node (.node .nil
     k!"serverArgumentImplPolicy" [k!"SERVER-ARGUMENT-IMPL-POLICY"]
     .nil)
    k!"softwareMemorySectionRef" [k!"SOFTWARE-MEMORY-SECTION-REF"]
    .nil))
  k!"swComponentDocumentation" [k!"SW-COMPONENT-DOCUMENTATION"]
  (.node (.node (.node .nil
     k!"swRecordLayoutGroupIndex" [k!"SW-RECORD-LAYOUT-GROUP-INDEX"]
     .nil)
    k!"targetModeDeclarationRef" [k!"TARGET-MODE-DECLARATION-REF"]
    .nil)
   k!"timeoutSubstitutionValue" [k!"TIMEOUT-SUBSTITUTION-VALUE"]
   (.node (.node .nil
     k!"transitToInvalidExtended" [k!"TRANSIT-TO-INVALID-EXTENDED"]
     .nil)
    k!"canControllerFdAttributes" [k!"CAN-CONTROLLER-FD-CONFIGURATION"]
    .nil)))
 k!"canControllerXlAttributes" [k!"CAN-CONTROLLER-XL-CONFIGURATION"]
 (.node (.node (.node (.node .nil
     k!"clientServiceMajorVersion" [k!"CLIENT-SERVICE-MAJOR-VERSION"]
     .nil)
    k!"clientServiceMinorVersion" [k!"CLIENT-SERVICE-MINOR-VERSION"]
    .nil)
   k!"configElementDefGlobalRef" [k!"CONFIG-ELEMENT-DEF-GLOBAL-REF"]
   (.node (.node .nil
     k!"contextAtomicComponentRef" [k!"CONTEXT-ATOMIC-COMPONENT-REF"]
     .nil)
    k!"contextRootCompositionRef" [k!"CONTEXT-ROOT-COMPOSITION-REF"]
    .nil))
  k!"implementationDataTypeRef" [k!"IMPLEMENTATION-DATA-TYPE-REF"]
  (.node (.node (.node .nil
     k!"instantiationDataDefProps" [k!"INSTANTIATION-DATA-DEF-PROPS"]
     .nil)
    k!"minislotActionPointOffset" [k!"MINISLOT-ACTION-POINT-OFFSET"]
    .nil)
   k!"multiplicityConfigClasses" [k!"MULTIPLICITY-CONFIG-CLASSES"]
   (.node (.node .nil
     k!"nmBusloadReductionEnabled" [k!"NM-BUSLOAD-REDUCTION-ENABLED"]
     .nil)
    k!"nmImmediateRestartEnabled" [k!"NM-IMMEDIATE-RESTART-ENABLED"]
    .nil))))

def nameTable110 : Bst (List Key) :=
 (.node (.node (.node (.node (.node .nil
     k!"requiresSymbolicNameValue" [k!"REQUIRES-SYMBOLIC-NAME-VALUE"]
     .nil)
    k!"rptExecutableEntityEvents" [k!"RPT-EXECUTABLE-ENTITY-EVENT"]
    .nil)
   k!"secondaryFreshnessValueId" [k!"SECONDARY-FRESHNESS-VALUE-ID"]
   (.node (.node .nil
     k!"senderReceiverAnnotations" [k!"SENDER-RECEIVER-ANNOTATION"]
     .nil)
    k!"serverServiceMajorVersion" [k!"SERVER-SERVICE-MAJOR-VERSION"]
    .nil))
  k!"serverServiceMinorVersion" [k!"SERVER-SERVICE-MINOR-VERSION"]
  (.node (.node (.node .nil
     k!"swGenericAxisParamTypeRef" [k!"SW-GENERIC-AXIS-PARAM-TYPE-REF"]
     .nil)
    k!"swcMappingConstraintsRefs" [k!"SWC-MAPPING-CONSTRAINT-REF"]
    .nil)
   k!"topicContent.topicContent" [k!"TOPIC-CONTENT"]
   (.node (.node .nil
     k!"transformationDescription" [k!"TRANSFORMATION-DESCRIPTIONS"]
     .nil)
    k!"absolutelyScheduledTimings" [k!"ABSOLUTELY-SCHEDULED-TIMINGS"]
    .nil)))
 k!"allowedServiceConsumerRefs" [k!"ALLOWED-SERVICE-CONSUMERS"]
 (.node (.node (.node (.node .nil
     k!"arTypedPerInstanceMemories" [k!"AR-TYPED-PER-INSTANCE-MEMORYS"]
     .nil)
    k!"associatedComIPduGroupRefs" [k!"ASSOCIATED-COM-I-PDU-GROUP-REF"]
    .nil)
   k!"bitfieldTextTableMaskFirst" [k!"BITFIELD-TEXT-TABLE-MASK-FIRST"]
   (.node (.node .nil
     k!"comConfigurationGwTimeBase" [k!"COM-CONFIGURATION-GW-TIME-BASE"]
     .nil)
    k!"comConfigurationRxTimeBase" [k!"COM-CONFIGURATION-RX-TIME-BASE"]
    .nil))
  k!"comConfigurationTxTimeBase" [k!"COM-CONFIGURATION-TX-TIME-BASE"]
  (.node (.node (.node .nil
     k!"componentImplementationRef" [k!"COMPONENT-IMPLEMENTATION-REF"]
     .nil)
    k!"compoundPrimitiveArguments" [k!"COMPOUND-PRIMITIVE-ARGUMENTS"]
    .nil)
   k!"diagEventDebounceAlgorithm" [k!"DIAG-EVENT-DEBOUNCE-ALGORITHM"]
   (.node .nil
    k!"dpgDoesNotRequireCoherency" [k!"DPG-DOES-NOT-REQUIRE-COHERENCYS"]
    .nil))))

def nameTable111 : Bst (List Key) :=
 .node nameTable109 k!"providedRequiredInterface" [k!"PROVIDED-REQUIRED-INTERFACE-TREF"] nameTable110

def nameTable112 : Bst (List Key) :=
 (.node (.node (.node (.node (.node .nil
     k!"inhibitingSecondaryFidRefs" [k!"INHIBITING-SECONDARY-FID-REF"]
     .nil)
    k!"instantiationDataDefPropss" [k!"INSTANTIATION-DATA-DEF-PROPS"]
    .nil)
   k!"instantiationRTEEventProps" [k!"INSTANTIATION-RTE-EVENT-PROPSS"]
   (.node (.node .nil
     k!"networkRepresentationProps" [k!"NETWORK-REPRESENTATION-PROPS"]
     .nil)
    k!"nmImmediateNmTransmissions" [k!"NM-IMMEDIATE-NM-TRANSMISSIONS"]
    .nil))
  k!"pduCollectionMaxBufferSize" [k!"PDU-COLLECTION-MAX-BUFFER-SIZE"]
  (.node (.node (.node .nil
     k!"postBuildVariantConditions" [k!"POST-BUILD-VARIANT-CONDITION"]
     .nil)
    k!"providedServiceInstanceRef" [k!"PROVIDED-SERVICE-INSTANCE-REF"]
    .nil)
   k!"rateBasedMonitoredEventRef" [k!"RATE-BASED-MONITORED-EVENT-REF"]
   (.node (.node .nil
     k!"regDoesNotRequireStability" [k!"REG-DOES-NOT-REQUIRE-STABILITYS"]
     .nil)
    k!"selectorFieldStartPosition" [k!"SELECTOR-FIELD-START-POSITION"]
    .nil)))
 k!"serviceRequestCallbackType" [k!"SERVICE-REQUEST-CALLBACK-TYPE"]
 (.node (.node (.node (.node .nil
     k!"targetDataPrototypeInCsRef" [k!"TARGET-DATA-PROTOTYPE-IN-CS"]
     .nil)
    k!"targetProvidedOperationRef" [k!"TARGET-PROVIDED-OPERATION-REF"]
    .nil)
   k!"targetRequiredOperationRef" [k!"TARGET-REQUIRED-OPERATION-REF"]
   (.node (.node .nil
     k!"transformationComSpecProps" [k!"TRANSFORMATION-COM-SPEC-PROPSS", k!"TRANSFORMATION-COM-SPEC-PROPS"]
     .nil)
    k!"transformationISignalProps" [k!"TRANSFORMATION-I-SIGNAL-PROPSS"]
    .nil))
  k!"transformationTechnologies" [k!"TRANSFORMATION-TECHNOLOGY"]
  (.node (.node (.node .nil
     k!"transmissionModeConditions" [k!"TRANSMISSION-MODE-CONDITION"]
     .nil)
    k!"transmissionModeTrueTiming" [k!"TRANSMISSION-MODE-TRUE-TIMING"]
    .nil)
   k!"applicationRecordElementRef" [k!"APPLICATION-RECORD-ELEMENT-REF"]
   (.node .nil
    k!"associatedPdurIPduGroupRefs" [k!"ASSOCIATED-PDUR-I-PDU-GROUP-REF"]
    .nil))))

def nameTable113 : Bst (List Key) :=
 (.node (.node (.node (.node (.node .nil
     k!"bitfieldTextTableMaskSecond" [k!"BITFIELD-TEXT-TABLE-MASK-SECOND"]
     .nil)
    k!"canControllerFdRequirements" [k!"CAN-CONTROLLER-FD-REQUIREMENTS"]
    .nil)
   k!"canControllerXlRequirements" [k!"CAN-CONTROLLER-XL-REQUIREMENTS"]
   (.node (.node .nil
     k!"dataReceivePointByArguments" [k!"DATA-RECEIVE-POINT-BY-ARGUMENTS"]
     .nil)
    k!"disableEndToEndStateMachine" [k!"DISABLE-END-TO-END-STATE-MACHINE"]
    .nil))
  k!"endToEndCallResponseTimeout" [k!"END-TO-END-CALL-RESPONSE-TIMEOUT"]
  (.node (.node (.node .nil
     k!"freezeCurrentStateSupported" [k!"FREEZE-CURRENT-STATE-SUPPORTED"]
     .nil)
    k!"functionPointerSignatureRef" [k!"FUNCTION-POINTER-SIGNATURE-REF"]
    .nil)
   k!"handleTerminationAndRestart" [k!"HANDLE-TERMINATION-AND-RESTART"]
   (.node (.node .nil
     k!"implementationConfigVariant" [k!"IMPLEMENTATION-CONFIG-VARIANT"]
     .nil)
    k!"initialRepetitionsBaseDelay" [k!"INITIAL-REPETITIONS-BASE-DELAY"]
    .nil)))
 k!"isStructWithOptionalElement" [k!"IS-STRUCT-WITH-OPTIONAL-ELEMENT"]
 (.node (.node (.node (.node .nil
     k!"maxNumberOfTimeQuantaPerBit" [k!"MAX-NUMBER-OF-TIME-QUANTA-PER-BIT"]
     .nil)
    k!"maximumDynamicPayloadLength" [k!"MAXIMUM-DYNAMIC-PAYLOAD-LENGTH"]
    .nil)
   k!"minNumberOfTimeQuantaPerBit" [k!"MIN-NUMBER-OF-TIME-QUANTA-PER-BIT"]
   (.node (.node .nil
     k!"mode_declaration_group_refs" [k!"MODE-DECLARATION-GROUP-REF"]
     .nil)
    k!"nmBusSynchronizationEnabled" [k!"NM-BUS-SYNCHRONIZATION-ENABLED"]
    .nil))
  k!"nmRemoteSleepIndicationTime" [k!"NM-REMOTE-SLEEP-INDICATION-TIME"]
  (.node (.node (.node .nil
     k!"providedClientServerEntries" [k!"PROVIDED-CLIENT-SERVER-ENTRYS"]
     .nil)
    k!"requiredClientServerEntries" [k!"REQUIRED-CLIENT-SERVER-ENTRYS"]
    .nil)
   k!"sectionInitializationPolicy" [k!"SECTION-INITIALIZATION-POLICY"]
   (.node .nil
    k!"targetDataPrototypeGroupRef" [k!"TARGET-DATA-PROTOTYPE-GROUP-REF"]
    .nil))))

def nameTable114 : Bst (List Key) :=
 .node nameTable112 k!"authenticationBuildAttempts" [k!"AUTHENTICATION-BUILD-ATTEMPTS"] nameTable113

def nameTable115 : Bst (List Key) :=
 .node nameTable111 k!"exclusiveAreaNestingOrders" [k!"EXCLUSIVE-AREA-NESTING-ORDER"] nameTable114

def nameTable116 : Bst (List Key) :=
 (.node (.node (.node (.node (.node .nil
     k!"transmissionModeDeclaration" [k!"TRANSMISSION-MODE-DECLARATION"]
     .nil)
    k!"transmissionModeFalseTiming" [k!"TRANSMISSION-MODE-FALSE-TIMING"]
    .nil)
   k!"updateIndicationBitPosition" [k!"UPDATE-INDICATION-BIT-POSITION"]
   (.node (.node .nil
     k!"useAutoValidationAtShutDown" [k!"USE-AUTO-VALIDATION-AT-SHUT-DOWN"]
     .nil)
    k!"vendorSpecificModuleDefRefs" [k!"VENDOR-SPECIFIC-MODULE-DEF-REF"]
    .nil))
  k!"wakeUpByControllerSupported" [k!"WAKE-UP-BY-CONTROLLER-SUPPORTED"]
  (.node (.node (.node .nil
     k!"baseTypeDefinition.byteOrder" [k!"BYTE-ORDER"]
     .nil)
    k!"contextDataPrototypeInCsRefs" [k!"CONTEXT-DATA-PROTOTYPE-IN-CS"]
    .nil)
   k!"ethSwitchPortGroupDerivation" [k!"ETH-SWITCH-PORT-GROUP-DERIVATION"]
   (.node (.node .nil
     k!"freshnessCounterSyncAttempts" [k!"FRESHNESS-COUNTER-SYNC-ATTEMPTS"]
     .nil)
    k!"modeDeclarationMappingSetRef" [k!"MODE-DECLARATION-MAPPING-SET-REF"]
    .nil)))
 k!"postBuildVariantMultiplicity" [k!"POST-BUILD-VARIANT-MULTIPLICITY"]
 (.node (.node (.node (.node .nil
     k!"recommendedConfigurationRefs" [k!"RECOMMENDED-CONFIGURATION-REF"]
     .nil)
    k!"shortTermAdjustmentSupported" [k!"SHORT-TERM-ADJUSTMENT-SUPPORTED"]
    .nil)
   k!"swSystemconstantValueSetRefs" [k!"SW-SYSTEMCONSTANT-VALUE-SET-REF"]
   (.node (.node .nil
     k!"targetRunnableEntityGroupRef" [k!"TARGET-RUNNABLE-ENTITY-GROUP-REF"]
     .nil)
    k!"additionalNativeTypeQualifier" [k!"ADDITIONAL-NATIVE-TYPE-QUALIFIER"]
    .nil))
  k!"containedISignalIPduGroupRefs" [k!"CONTAINED-I-SIGNAL-I-PDU-GROUP-REF"]
  (.node (.node (.node .nil
     k!"contextComponentPrototypeRefs" [k!"CONTEXT-COMPONENT-PROTOTYPE-REF"]
     .nil)
    k!"controlConsumedEventGroupRefs" [k!"CONTROL-CONSUMED-EVENT-GROUP-REF"]
    .nil)
   k!"controlProvidedEventGroupRefs" [k!"CONTROL-PROVIDED-EVENT-GROUP-REF"]
   (.node .nil
    k!"destinationUriNestingContract" [k!"DESTINATION-URI-NESTING-CONTRACT"]
    .nil))))

def nameTable117 : Bst (List Key) :=
 (.node (.node (.node (.node (.node .nil
     k!"exclusiveAreaNestingOrderRefs" [k!"EXCLUSIVE-AREA-NESTING-ORDER-REF"]
     .nil)
    k!"memoryAllocationKeywordPolicy" [k!"MEMORY-ALLOCATION-KEYWORD-POLICY"]
    .nil)
   k!"networkManagementVectorLength" [k!"NETWORK-MANAGEMENT-VECTOR-LENGTH"]
   (.node (.node .nil
     k!"nmSynchronizationPointEnabled" [k!"NM-SYNCHRONIZATION-POINT-ENABLED"]
     .nil)
    k!"rootParameterDataPrototypeRef" [k!"ROOT-PARAMETER-DATA-PROTOTYPE-REF"]
    .nil))
  k!"rptExecutableEntityProperties" [k!"RPT-EXECUTABLE-ENTITY-PROPERTIES"]
  (.node (.node (.node .nil
     k!"runtimeIpAddressConfiguration" [k!"RUNTIME-IP-ADDRESS-CONFIGURATION"]
     .nil)
    k!"signalServiceTranslationProps" [k!"SIGNAL-SERVICE-TRANSLATION-PROPS"]
    .nil)
   k!"supportsMultipleInstantiation" [k!"SUPPORTS-MULTIPLE-INSTANTIATION"]
   (.node (.node .nil
     k!"swCalprmAxisSet._swCalprmAxis" [k!"SW-CALPRM-AXIS"]
     .nil)
    k!"symbolWindowActionPointOffset" [k!"SYMBOL-WINDOW-ACTION-POINT-OFFSET"]
    .nil)))
 k!"usedImplementationDataTypeRef" [k!"USED-IMPLEMENTATION-DATA-TYPE-REF"]
 (.node (.node (.node (.node .nil
     k!"addressConfigurationCapability" [k!"ADDRESS-CONFIGURATION-CAPABILITY"]
     .nil)
    k!"asynchronousServerCallPointRef" [k!"ASYNCHRONOUS-SERVER-CALL-POINT-REF"]
    .nil)
   k!"authDataFreshnessStartPosition" [k!"AUTH-DATA-FRESHNESS-START-POSITION"]
   (.node (.node .nil
     k!"contextModeDeclarationGroupRef" [k!"CONTEXT-MODE-DECLARATION-GROUP-REF"]
     .nil)
    k!"couplingPortStructuralElements" [k!"COUPLING-PORT-STRUCTURAL-ELEMENTS"]
    .nil))
  k!"endToEndProtectionISignalIPdus" [k!"END-TO-END-PROTECTION-I-SIGNAL-I-PDU"]
  (.node (.node (.node .nil
     k!"explicitInterRunnableVariables" [k!"EXPLICIT-INTER-RUNNABLE-VARIABLES"]
     .nil)
    k!"implementationRecordElementRef" [k!"IMPLEMENTATION-RECORD-ELEMENT-REF"]
    .nil)
   k!"maxTrcvDelayCompensationOffset" [k!"MAX-TRCV-DELAY-COMPENSATION-OFFSET"]
   (.node .nil
    k!"maxWithoutClockCorrectionFatal" [k!"MAX-WITHOUT-CLOCK-CORRECTION-FATAL"]
    .nil))))

def nameTable118 : Bst (List Key) :=
 .node nameTable116 k!"ethernetPriorityRegenerations" [k!"ETHERNET-PRIORITY-REGENERATION"] nameTable117

def nameTable119 : Bst (List Key) :=
 (.node (.node (.node (.node (.node .nil
     k!"preconfiguredConfigurationRefs" [k!"PRECONFIGURED-CONFIGURATION-REF"]
     .nil)
    k!"supportsAsynchronousModeSwitch" [k!"SUPPORTS-ASYNCHRONOUS-MODE-SWITCH"]
    .nil)
   k!"targetVariableDataPrototypeRef" [k!"TARGET-VARIABLE-DATA-PROTOTYPE-REF"]
   (.node (.node .nil
     k!"baseTypeDefinition.baseTypeSize" [k!"BASE-TYPE-SIZE"]
     .nil)
    k!"baseTypeDefinition.memAlignment" [k!"MEM-ALIGNMENT"]
    .nil))
  k!"clientPortFromConnectionRequest" [k!"CLIENT-PORT-FROM-CONNECTION-REQUEST"]
  (.node (.node (.node .nil
     k!"compositeNetworkRepresentations" [k!"COMPOSITE-NETWORK-REPRESENTATION"]
     .nil)
    k!"contextSwComponentPrototypeRefs" [k!"CONTEXT-SW-COMPONENT-PROTOTYPE-REF"]
    .nil)
   k!"dataPrototypeInPortInterfaceRef" [k!"DATA-PROTOTYPE-IN-PORT-INTERFACE-REF"]
   (.node (.node .nil
     k!"e2eProfileCompatibilityPropsRef" [k!"E2E-PROFILE-COMPATIBILITY-PROPS-REF", k!"E-2-E-PROFILE-COMPATIBILITY-PROPS-REF"]
     .nil)
    k!"prestoredFreezeframeStoredInNvm" [k!"PRESTORED-FREEZEFRAME-STORED-IN-NVM"]
    .nil)))
 k!"resultingRptSwPrototypingAccess" [k!"RESULTING-RPT-SW-PROTOTYPING-ACCESS"]
 (.node (.node (.node (.node .nil
     k!"calibrationParameterValueSetRefs" [k!"CALIBRATION-PARAMETER-VALUE-SET-REF"]
     .nil)
    k!"dataPrototypeTransformationProps" [k!"DATA-PROTOTYPE-TRANSFORMATION-PROPS"]
    .nil)
   k!"executeDespiteDataUnavailability" [k!"EXECUTE-DESPITE-DATA-UNAVAILABILITY"]
   (.node (.node .nil
     k!"includedModeDeclarationGroupSets" [k!"INCLUDED-MODE-DECLARATION-GROUP-SET"]
     .nil)
    k!"ioHwAbstractionServerAnnotations" [k!"IO-HW-ABSTRACTION-SERVER-ANNOTATION"]
    .nil))
  k!"maxWithoutClockCorrectionPassive" [k!"MAX-WITHOUT-CLOCK-CORRECTION-PASSIVE"]
  (.node (.node (.node .nil
     k!"verificationStatusIndicationMode" [k!"VERIFICATION-STATUS-INDICATION-MODE"]
     .nil)
    k!"activationReasonRepresentationRef" [k!"ACTIVATION-REASON-REPRESENTATION-REF"]
    .nil)
   k!"clientIpAddrFromConnectionRequest" [k!"CLIENT-IP-ADDR-FROM-CONNECTION-REQUEST"]
   (.node .nil
    k!"comEnableMDTForCyclicTransmission" [k!"COM-ENABLE-MDT-FOR-CYCLIC-TRANSMISSION"]
    .nil))))

def nameTable120 : Bst (List Key) :=
 (.node (.node (.node (.node (.node .nil
     k!"transmissionStartSequenceDuration" [k!"TRANSMISSION-START-SEQUENCE-DURATION"]
     .nil)
    k!"bitfieldTextTableMaskPortPrototype" [k!"BITFIELD-TEXT-TABLE-MASK-PORT-PROTOTYPE"]
    .nil)
   k!"firstToSecondDataTransformationRef" [k!"FIRST-TO-SECOND-DATA-TRANSFORMATION-REF"]
   (.node (.node .nil
     k!"freshnessTimestampTimePeriodFactor" [k!"FRESHNESS-TIMESTAMP-TIME-PERIOD-FACTOR"]
     .nil)
    k!"measurableSystemConstantValuesRefs" [k!"MEASURABLE-SYSTEM-CONSTANT-VALUES-REF"]
    .nil))
  k!"secondToFirstDataTransformationRef" [k!"SECOND-TO-FIRST-DATA-TRANSFORMATION-REF"]
  (.node (.node (.node .nil
     k!"signalServiceTranslationEventProps" [k!"SIGNAL-SERVICE-TRANSLATION-EVENT-PROPS"]
     .nil)
    k!"baseTypeDefinition.baseTypeEncoding" [k!"BASE-TYPE-ENCODING"]
    .nil)
   k!"baseTypeDefinition.nativeDeclaration" [k!"NATIVE-DECLARATION"]
   (.node (.node .nil
     k!"comBasedSignalGroupTransformationRef" [k!"COM-BASED-SIGNAL-GROUP-TRANSFORMATIONS"]
     .nil)
    k!"dataPrototypeInClientServerInterface" [k!"DATA-PROTOTYPE-IN-CLIENT-SERVER-INTERFACE-REF"]
    .nil)))
 k!"endToEndProtectionVariablePrototypes" [k!"END-TO-END-PROTECTION-VARIABLE-PROTOTYPE"]
 (.node (.node (.node (.node .nil
     k!"usedLifeCycleStateDefinitionGroupRef" [k!"USED-LIFE-CYCLE-STATE-DEFINITION-GROUP-REF"]
     .nil)
    k!"postBuildVariantCriterionValueSetRefs" [k!"POST-BUILD-VARIANT-CRITERION-VALUE-SET-REF"]
    .nil)
   k!"bitfieldTextTableMaskNvBlockDescriptor" [k!"BITFIELD-TEXT-TABLE-MASK-NV-BLOCK-DESCRIPTOR"]
   (.node (.node .nil
     k!"compuScaleContents.compuRationalCoeffs" [k!"COMPU-RATIONAL-COEFFS"]
     .nil)
    k!"remoteMulticastSubscriptionAddressRefs" [k!"REMOTE-MULTICAST-SUBSCRIPTION-ADDRESSS"]
    .nil))
  k!"contextModeDeclarationGroupPrototypeRef" [k!"CONTEXT-MODE-DECLARATION-GROUP-PROTOTYPE-REF"]
  (.node (.node (.node .nil
     k!"swRecordLayoutGroupContentType.swRecordLayoutV" [k!"SW-RECORD-LAYOUT-V"]
     .nil)
    k!"associatedConsumedProvidedServiceInstanceGroupRefs" [k!"ASSOCIATED-CONSUMED-PROVIDED-SERVICE-INSTANCE-GROUP-REF"]
    .nil)
   k!"swRecordLayoutGroupContentType.swRecordLayoutGroup" [k!"SW-RECORD-LAYOUT-GROUP"]
   (.node .nil
    k!"compuScaleContents.compuConst.compuConstContentType.vt" [k!"VT"]
    .nil))))

def nameTable121 : Bst (List Key) :=
 .node nameTable119 k!"modeSwitchEventTriggeredActivitys" [k!"MODE-SWITCH-EVENT-TRIGGERED-ACTIVITY"] nameTable120

def nameTable122 : Bst (List Key) :=
 .node nameTable118 k!"minTrcvDelayCompensationOffset" [k!"MIN-TRCV-DELAY-COMPENSATION-OFFSET"] nameTable121

def nameTable123 : Bst (List Key) :=
 .node nameTable115 k!"transformingSystemSignalRef" [k!"TRANSFORMING-SYSTEM-SIGNAL-REF"] nameTable122

def nameTable124 : Bst (List Key) :=
 .node nameTable108 k!"runnableEntityGroupIRefs" [k!"RUNNABLE-ENTITY-GROUP-IREF"] nameTable123

def nameTable125 : Bst (List Key) :=
 .node nameTable93 k!"minimumStartInterval" [k!"MINIMUM-START-INTERVAL"] nameTable124

def nameTable126 : Bst (List Key) :=
 .node nameTable62 k!"baseReferenceRef" [k!"BASE-REFERENCE-REF"] nameTable125

/-- for attributes: the elements and XML attributes of the same name that are read for them -/
def nameTable : Bst (List Key) := nameTable126

end Verif.Gen
