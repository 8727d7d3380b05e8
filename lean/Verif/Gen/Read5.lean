import Verif.Gen.Read4
-- generated by tools/gen_codec.py; do not edit
namespace Verif.Gen.R
open Verif Verif.Model

/-- `readBusDependentNmEcus`, `parser/arxml_parser.py:6915-6923` -/
def readBusDependentNmEcus : List RSlot :=
  [/- 6921 -/ { field := k!"busDependentNmEcus", path := (.all k!"BUS-DEPENDENT-NM-ECUS" (.all k!"UDP-NM-ECU" .nil)), item := (.objs [(k!"UDP-NM-ECU", k!"readBusDependentNmEcus_UdpNmEcu")]) },
   /- 6923 -/ { field := 0, path := (.all k!"BUS-DEPENDENT-NM-ECUS" (.all 0 .nil)), item := (.guard [k!"UDP-NM-ECU"] .unsupported) }]

/-- `readUdpNmEcu`, `parser/arxml_parser.py:6912-6913` -/
def readUdpNmEcu : List RSlot :=
  [/- 6913 -/ { field := k!"nmSynchronizationPointEnabled", path := (.first [k!"NM-SYNCHRONIZATION-POINT-ENABLED"] .nil), item := (.prim .boolean) }]

/-- `readBusDependentNmEcus`, `parser/arxml_parser.py:6915-6923` (the `UdpNmEcu` it makes) -/
def readBusDependentNmEcus_UdpNmEcu : List RSlot :=
  /- 6920 -/ readUdpNmEcu

/-- `readCallbackHeaderRefs`, `parser/arxml_parser.py:2511-2515` -/
def readCallbackHeaderRefs : List RSlot :=
  [/- 2515 -/ { field := k!"callbackHeaderRefs", path := (.first [k!"CALLBACK-HEADER-REFS"] (.all k!"CALLBACK-HEADER-REF" .nil)), item := (.prim .ref) }]

/-- `readCommunicationConnectorEcuCommPortInstances`, `parser/arxml_parser.py:8144-8158` -/
def readCommunicationConnectorEcuCommPortInstances : List RSlot :=
  [/- 8149 -/ { field := k!"ecuCommPortInstances", path := (.all k!"ECU-COMM-PORT-INSTANCES" (.all 0 .nil)), item := (.objs [(k!"FRAME-PORT", k!"readCommunicationConnectorEcuCommPortInstances_FramePort"), (k!"I-PDU-PORT", k!"readCommunicationConnectorEcuCommPortInstances_IPduPort"), (k!"I-SIGNAL-PORT", k!"readCommunicationConnectorEcuCommPortInstances_ISignalPort")]), elems := true, named := true, fresh := true },
   /- 8158 -/ { field := 0, path := (.all k!"ECU-COMM-PORT-INSTANCES" (.all 0 .nil)), item := (.guard [k!"FRAME-PORT", k!"I-PDU-PORT", k!"I-SIGNAL-PORT"] .invalid) }]

/-- `readCommunicationConnector`, `parser/arxml_parser.py:8160-8164` -/
def readCommunicationConnector : List RSlot :=
  /- 8161 -/ readIdentifiable ++
  [/- 8162 -/ { field := k!"commControllerRef", path := (.first [k!"COMM-CONTROLLER-REF"] .nil), item := (.prim .ref) }] ++
  /- 8163 -/ readCommunicationConnectorEcuCommPortInstances ++
  [/- 8164 -/ { field := k!"pncGatewayType", path := (.first [k!"PNC-GATEWAY-TYPE"] .nil), item := (.prim .lit) }]

/-- `readCanCommunicationConnector`, `parser/arxml_parser.py:8166-8167`; also `readFlexrayCommunicationConnector`, `readLinCommunicationConnector` -/
def readCanCommunicationConnector : List RSlot :=
  /- 8167 -/ readCommunicationConnector

/-- `readCanCommunicationController`, `parser/arxml_parser.py:8006-8011` -/
def readCanCommunicationController : List RSlot :=
  /- 8008 -/ readIdentifiable ++
  /- 8011 -/ via (.first [k!"CAN-COMMUNICATION-CONTROLLER-VARIANTS", k!"CAN-COMMUNICATION-CONTROLLER-CONDITIONAL"] .nil) readAbstractCanCommunicationController

/-- `readFrameTriggering`, `parser/arxml_parser.py:5752-5758` -/
def readFrameTriggering : List RSlot :=
  /- 5753 -/ readIdentifiable ++
  [/- 5755 -/ { field := k!"framePortRefs", path := (.all k!"FRAME-PORT-REFS" (.all k!"FRAME-PORT-REF" .nil)), item := (.prim .ref) },
   /- 5756 -/ { field := k!"frameRef", path := (.first [k!"FRAME-REF"] .nil), item := (.prim .ref) },
   /- 5758 -/ { field := k!"pduTriggeringRefs", path := (.all k!"PDU-TRIGGERINGS" (.all k!"PDU-TRIGGERING-REF-CONDITIONAL" (.first [k!"PDU-TRIGGERING-REF"] .nil))), item := (.prim .ref) }]

/-- `readCanFrameTriggering`, `parser/arxml_parser.py:5760-5768` -/
def readCanFrameTriggering : List RSlot :=
  /- 5762 -/ readFrameTriggering ++
  [/- 5763 -/ { field := k!"canAddressingMode", path := (.first [k!"CAN-ADDRESSING-MODE"] .nil), item := (.prim .lit) },
   /- 5764 -/ { field := k!"canFdFrameSupport", path := (.first [k!"CAN-FD-FRAME-SUPPORT"] .nil), item := (.prim .boolean) },
   /- 5765 -/ { field := k!"canFrameRxBehavior", path := (.first [k!"CAN-FRAME-RX-BEHAVIOR"] .nil), item := (.prim .lit) },
   /- 5766 -/ { field := k!"canFrameTxBehavior", path := (.first [k!"CAN-FRAME-TX-BEHAVIOR"] .nil), item := (.prim .lit) },
   /- 5767 -/ { field := k!"identifier", path := (.first [k!"IDENTIFIER"] .nil), item := (.prim .numerical) },
   /- 5768 -/ { field := k!"rxIdentifierRange", path := (.first [k!"RX-IDENTIFIER-RANGE"] .nil), item := (.objs [(k!"RX-IDENTIFIER-RANGE", k!"getChildElementRxIdentifierRange_RxIdentifierRange")]) }]

/-- `readNmClusterNmNodes`, `parser/arxml_parser.py:6816-6830` -/
def readNmClusterNmNodes : List RSlot :=
  [/- 6821 -/ { field := k!"nmNodes", path := (.all k!"NM-NODES" (.all 0 .nil)), item := (.objs [(k!"CAN-NM-NODE", k!"readNmClusterNmNodes_CanNmNode"), (k!"UDP-NM-NODE", k!"readNmClusterNmNodes_UdpNmNode"), (k!"J-1939-NM-NODE", k!"readNmClusterNmNodes_J1939NmNode")]), elems := true, named := true, fresh := true },
   /- 6830 -/ { field := 0, path := (.all k!"NM-NODES" (.all 0 .nil)), item := (.guard [k!"CAN-NM-NODE", k!"UDP-NM-NODE", k!"J-1939-NM-NODE"] .unsupported) }]

/-- `readNmCluster`, `parser/arxml_parser.py:6857-6864` -/
def readNmCluster : List RSlot :=
  /- 6859 -/ readIdentifiable ++
  [/- 6860 -/ { field := k!"communicationClusterRef", path := (.first [k!"COMMUNICATION-CLUSTER-REF"] .nil), item := (.prim .ref) },
   /- 6861 -/ { field := k!"nmChannelId", path := (.first [k!"NM-CHANNEL-ID"] .nil), item := (.prim .numerical) },
   /- 6862 -/ { field := k!"nmChannelSleepMaster", path := (.first [k!"NM-CHANNEL-SLEEP-MASTER"] .nil), item := (.prim .boolean) }] ++
  /- 6863 -/ readNmClusterNmNodes ++
  [/- 6864 -/ { field := k!"_nmSynchronizingNetwork", path := (.first [k!"NM-SYNCHRONIZING-NETWORK"] .nil), item := (.prim .boolean) }]

/-- `readCanNmCluster`, `parser/arxml_parser.py:6866-6882` -/
def readCanNmCluster : List RSlot :=
  /- 6868 -/ readNmCluster ++
  [/- 6869 -/ { field := k!"nmBusloadReductionActive", path := (.first [k!"NM-BUSLOAD-REDUCTION-ACTIVE"] .nil), item := (.prim .boolean) },
   /- 6870 -/ { field := k!"nmCarWakeUpRxEnabled", path := (.first [k!"NM-CAR-WAKE-UP-RX-ENABLED"] .nil), item := (.prim .boolean) },
   /- 6871 -/ { field := k!"nmCbvPosition", path := (.first [k!"NM-CBV-POSITION"] .nil), item := (.prim .numerical) },
   /- 6872 -/ { field := k!"nmChannelActive", path := (.first [k!"NM-CHANNEL-ACTIVE"] .nil), item := (.prim .boolean) },
   /- 6873 -/ { field := k!"nmImmediateNmCycleTime", path := (.first [k!"NM-IMMEDIATE-NM-CYCLE-TIME"] .nil), item := (.prim .float) },
   /- 6874 -/ { field := k!"nmImmediateNmTransmissions", path := (.first [k!"NM-IMMEDIATE-NM-TRANSMISSIONS"] .nil), item := (.prim .numerical) },
   /- 6875 -/ { field := k!"nmMessageTimeoutTime", path := (.first [k!"NM-MESSAGE-TIMEOUT-TIME"] .nil), item := (.prim .float) },
   /- 6876 -/ { field := k!"nmMsgCycleTime", path := (.first [k!"NM-MSG-CYCLE-TIME"] .nil), item := (.prim .float) },
   /- 6877 -/ { field := k!"nmNetworkTimeout", path := (.first [k!"NM-NETWORK-TIMEOUT"] .nil), item := (.prim .float) },
   /- 6878 -/ { field := k!"nmNidPosition", path := (.first [k!"NM-NID-POSITION"] .nil), item := (.prim .numerical) },
   /- 6879 -/ { field := k!"nmRemoteSleepIndicationTime", path := (.first [k!"NM-REMOTE-SLEEP-INDICATION-TIME"] .nil), item := (.prim .float) },
   /- 6880 -/ { field := k!"nmRepeatMessageTime", path := (.first [k!"NM-REPEAT-MESSAGE-TIME"] .nil), item := (.prim .float) },
   /- 6881 -/ { field := k!"nmUserDataLength", path := (.first [k!"NM-USER-DATA-LENGTH"] .nil), item := (.prim .numerical) },
   /- 6882 -/ { field := k!"nmWaitBusSleepTime", path := (.first [k!"NM-WAIT-BUS-SLEEP-TIME"] .nil), item := (.prim .float) }]

/-- `readNmNode`, `parser/arxml_parser.py:6783-6795` -/
def readNmNode : List RSlot :=
  /- 6784 -/ readIdentifiable ++
  [/- 6786 -/ { field := k!"controllerRef", path := (.first [k!"CONTROLLER-REF"] .nil), item := (.prim .ref) },
   /- 6787 -/ { field := k!"nmCoordCluster", path := (.first [k!"NM-COORD-CLUSTER"] .nil), item := (.prim .positive) },
   /- 6788 -/ { field := k!"nmCoordinatorRole", path := (.first [k!"NM-COORDINATOR-ROLE"] .nil), item := (.prim .lit) },
   /- 6789 -/ { field := k!"nmIfEcuRef", path := (.first [k!"NM-IF-ECU-REF"] .nil), item := (.prim .ref) },
   /- 6790 -/ { field := k!"nmNodeId", path := (.first [k!"NM-NODE-ID"] .nil), item := (.prim .integer) },
   /- 6791 -/ { field := k!"nmPassiveModeEnabled", path := (.first [k!"NM-PASSIVE-MODE-ENABLED"] .nil), item := (.prim .boolean) },
   /- 6793 -/ { field := k!"rxNmPduRefs", path := (.all k!"RX-NM-PDU-REFS" (.all k!"RX-NM-PDU-REF" .nil)), item := (.prim .ref) },
   /- 6795 -/ { field := k!"txNmPduRefs", path := (.all k!"TX-NM-PDU-REFS" (.all k!"TX-NM-PDU-REF" .nil)), item := (.prim .ref) }]

/-- `readCanNmNode`, `parser/arxml_parser.py:6797-6803` -/
def readCanNmNode : List RSlot :=
  /- 6799 -/ readNmNode ++
  [/- 6800 -/ { field := k!"nmCarWakeUpRxEnabled", path := (.first [k!"NM-CAR-WAKE-UP-RX-ENABLED"] .nil), item := (.prim .boolean) },
   /- 6801 -/ { field := k!"nmMsgCycleOffset", path := (.first [k!"NM-MSG-CYCLE-OFFSET"] .nil), item := (.prim .float) },
   /- 6802 -/ { field := k!"nmMsgReducedTime", path := (.first [k!"NM-MSG-REDUCED-TIME"] .nil), item := (.prim .float) },
   /- 6803 -/ { field := k!"nmRangeConfig", path := (.first [k!"NM-RANGE-CONFIG"] .nil), item := (.objs [(k!"NM-RANGE-CONFIG", k!"getChildElementRxIdentifierRange_RxIdentifierRange")]) }]

/-- `readPhysicalChannelCommConnectorRefs`, `parser/arxml_parser.py:5834-5836` -/
def readPhysicalChannelCommConnectorRefs : List RSlot :=
  [/- 5836 -/ { field := k!"commConnectorRefs", path := (.all k!"COMM-CONNECTORS" (.all k!"COMMUNICATION-CONNECTOR-REF-CONDITIONAL" (.first [k!"COMMUNICATION-CONNECTOR-REF"] .nil))), item := (.prim .ref) }]

/-- `readPhysicalChannelFrameTriggerings`, `parser/arxml_parser.py:5838-5851` -/
def readPhysicalChannelFrameTriggerings : List RSlot :=
  [/- 5842 -/ { field := k!"frameTriggerings", path := (.all k!"FRAME-TRIGGERINGS" (.all 0 .nil)), item := (.objs [(k!"CAN-FRAME-TRIGGERING", k!"readPhysicalChannelFrameTriggerings_CanFrameTriggering"), (k!"LIN-FRAME-TRIGGERING", k!"readPhysicalChannelFrameTriggerings_LinFrameTriggering"), (k!"FLEXRAY-FRAME-TRIGGERING", k!"readPhysicalChannelFrameTriggerings_FlexrayFrameTriggering")]), elems := true, named := true, fresh := true },
   /- 5851 -/ { field := 0, path := (.all k!"FRAME-TRIGGERINGS" (.all 0 .nil)), item := (.guard [k!"CAN-FRAME-TRIGGERING", k!"LIN-FRAME-TRIGGERING", k!"FLEXRAY-FRAME-TRIGGERING"] .unsupported) }]

/-- `readPhysicalChannelISignalTriggerings`, `parser/arxml_parser.py:5853-5860` -/
def readPhysicalChannelISignalTriggerings : List RSlot :=
  [/- 5857 -/ { field := k!"elements", path := (.all k!"I-SIGNAL-TRIGGERINGS" (.all k!"I-SIGNAL-TRIGGERING" .nil)), item := (.objs [(k!"I-SIGNAL-TRIGGERING", k!"readPhysicalChannelISignalTriggerings_ISignalTriggering")]), elems := true, named := true, fresh := true },
   /- 5860 -/ { field := 0, path := (.all k!"I-SIGNAL-TRIGGERINGS" (.all 0 .nil)), item := (.guard [k!"I-SIGNAL-TRIGGERING"] .unsupported) }]

/-- `readPhysicalChannelPduTriggerings`, `parser/arxml_parser.py:5862-5869` -/
def readPhysicalChannelPduTriggerings_PhysicalChannel : List RSlot :=
  [/- 5866 -/ { field := k!"elements", path := (.all k!"PDU-TRIGGERINGS" (.all k!"PDU-TRIGGERING" .nil)), item := (.objs [(k!"PDU-TRIGGERING", k!"readPhysicalChannelPduTriggerings_PduTriggering")]), elems := true, named := true, fresh := true },
   /- 5869 -/ { field := 0, path := (.all k!"PDU-TRIGGERINGS" (.all 0 .nil)), item := (.guard [k!"PDU-TRIGGERING"] .unsupported) }]

/-- `readPhysicalChannel`, `parser/arxml_parser.py:5871-5877` -/
def readPhysicalChannel : List RSlot :=
  /- 5872 -/ readIdentifiable ++
  /- 5874 -/ readPhysicalChannelCommConnectorRefs ++
  /- 5875 -/ readPhysicalChannelFrameTriggerings ++
  /- 5876 -/ readPhysicalChannelISignalTriggerings ++
  /- 5877 -/ readPhysicalChannelPduTriggerings_PhysicalChannel

/-- `readCanPhysicalChannel`, `parser/arxml_parser.py:5879-5880` -/
def readCanPhysicalChannel : List RSlot :=
  /- 5880 -/ readPhysicalChannel

/-- `readCanTpAddress`, `parser/arxml_parser.py:6959-6962` -/
def readCanTpAddress : List RSlot :=
  /- 6960 -/ readIdentifiable ++
  [/- 6961 -/ { field := k!"tpAddress", path := (.first [k!"TP-ADDRESS"] .nil), item := (.prim .integer) },
   /- 6962 -/ { field := k!"tpAddressExtensionValue", path := (.first [k!"TP-ADDRESS-EXTENSION-VALUE"] .nil), item := (.prim .integer) }]

/-- `readCanTpChannel`, `parser/arxml_parser.py:6973-6976` -/
def readCanTpChannel : List RSlot :=
  /- 6974 -/ readIdentifiable ++
  [/- 6975 -/ { field := k!"channelId", path := (.first [k!"CHANNEL-ID"] .nil), item := (.prim .positive) },
   /- 6976 -/ { field := k!"channelMode", path := (.first [k!"CHANNEL-MODE"] .nil), item := (.prim .lit) }]

/-- `readCanTpConfigTpAddresses`, `parser/arxml_parser.py:6964-6971` (the `CanTpAddress` it makes) -/
def readCanTpConfigTpAddresses_CanTpAddress : List RSlot :=
  [/- 6968 -/ { field := k!"short_name", path := (.first [k!"SHORT-NAME"] .nil), item := .name, req := .always }] ++
  /- 6969 -/ readCanTpAddress

/-- `readCanTpConfigTpChannels`, `parser/arxml_parser.py:6978-6985` (the `CanTpChannel` it makes) -/
def readCanTpConfigTpChannels_CanTpChannel : List RSlot :=
  [/- 6982 -/ { field := k!"short_name", path := (.first [k!"SHORT-NAME"] .nil), item := .name, req := .always }] ++
  /- 6983 -/ readCanTpChannel

/-- `readTpConnection`, `parser/arxml_parser.py:6987-6992` -/
def readTpConnection : List RSlot :=
  [/- 6988 -/ { field := k!"timestamp", path := .nil, item := (.attr k!"T" .raw) },
   /- 6988 -/ { field := k!"uuid", path := .nil, item := (.attr k!"UUID" .raw) },
   /- 6991 -/ { field := k!"ident", path := (.first [k!"IDENT"] .nil), item := (.objs [(k!"IDENT", k!"readTpConnection_TpConnectionIdent")]), named := true, fresh := true }]

/-- `readTpConnectionReceiverRefs`, `parser/arxml_parser.py:6994-6996` -/
def readTpConnectionReceiverRefs : List RSlot :=
  [/- 6996 -/ { field := k!"receiverRefs", path := (.all k!"RECEIVER-REFS" (.all k!"RECEIVER-REF" .nil)), item := (.prim .ref) }]

/-- `readCanTpConnection`, `parser/arxml_parser.py:6998-7015` -/
def readCanTpConnection : List RSlot :=
  /- 6999 -/ readTpConnection ++
  [/- 7000 -/ { field := k!"addressingFormat", path := (.first [k!"ADDRESSING-FORMAT"] .nil), item := (.prim .lit) },
   /- 7001 -/ { field := k!"canTpChannelRef", path := (.first [k!"CAN-TP-CHANNEL-REF"] .nil), item := (.prim .ref) },
   /- 7002 -/ { field := k!"cancellation", path := (.first [k!"CANCELLATION"] .nil), item := (.prim .boolean) },
   /- 7003 -/ { field := k!"dataPduRef", path := (.first [k!"DATA-PDU-REF"] .nil), item := (.prim .ref) },
   /- 7004 -/ { field := k!"flowControlPduRef", path := (.first [k!"FLOW-CONTROL-PDU-REF"] .nil), item := (.prim .ref) },
   /- 7005 -/ { field := k!"maxBlockSize", path := (.first [k!"MAX-BLOCK-SIZE"] .nil), item := (.prim .integer) },
   /- 7006 -/ { field := k!"multicastRef", path := (.first [k!"MULTICAST-REF"] .nil), item := (.prim .ref) },
   /- 7007 -/ { field := k!"paddingActivation", path := (.first [k!"PADDING-ACTIVATION"] .nil), item := (.prim .boolean) }] ++
  /- 7008 -/ readTpConnectionReceiverRefs ++
  [/- 7009 -/ { field := k!"taType", path := (.first [k!"TA-TYPE"] .nil), item := (.prim .lit) },
   /- 7010 -/ { field := k!"timeoutBr", path := (.first [k!"TIMEOUT-BR"] .nil), item := (.prim .time) },
   /- 7011 -/ { field := k!"timeoutBs", path := (.first [k!"TIMEOUT-BS"] .nil), item := (.prim .time) },
   /- 7012 -/ { field := k!"timeoutCr", path := (.first [k!"TIMEOUT-CR"] .nil), item := (.prim .time) },
   /- 7013 -/ { field := k!"timeoutCs", path := (.first [k!"TIMEOUT-CS"] .nil), item := (.prim .time) },
   /- 7014 -/ { field := k!"tpSduRef", path := (.first [k!"TP-SDU-REF"] .nil), item := (.prim .ref) },
   /- 7015 -/ { field := k!"transmitterRef", path := (.first [k!"TRANSMITTER-REF"] .nil), item := (.prim .ref) }]

/-- `readCanTpConfigTpConnections`, `parser/arxml_parser.py:7017-7025` (the `CanTpConnection` it makes) -/
def readCanTpConfigTpConnections_CanTpConnection : List RSlot :=
  /- 7022 -/ readCanTpConnection

/-- `readCanTpEcu`, `parser/arxml_parser.py:7027-7029` -/
def readCanTpEcu : List RSlot :=
  [/- 7028 -/ { field := k!"cycleTimeMainFunction", path := (.first [k!"CYCLE-TIME-MAIN-FUNCTION"] .nil), item := (.prim .time) },
   /- 7029 -/ { field := k!"ecuInstanceRef", path := (.first [k!"ECU-INSTANCE-REF"] .nil), item := (.prim .ref) }]

/-- `readCanTpConfigTpEcus`, `parser/arxml_parser.py:7031-7039` (the `CanTpEcu` it makes) -/
def readCanTpConfigTpEcus_CanTpEcu : List RSlot :=
  /- 7036 -/ readCanTpEcu

/-- `readCanTpNode`, `parser/arxml_parser.py:7041-7048` -/
def readCanTpNode : List RSlot :=
  /- 7042 -/ readIdentifiable ++
  [/- 7043 -/ { field := k!"connectorRef", path := (.first [k!"CONNECTOR-REF"] .nil), item := (.prim .ref) },
   /- 7044 -/ { field := k!"maxFcWait", path := (.first [k!"MAX-FC-WAIT"] .nil), item := (.prim .integer) },
   /- 7045 -/ { field := k!"stMin", path := (.first [k!"ST-MIN"] .nil), item := (.prim .time) },
   /- 7046 -/ { field := k!"timeoutAr", path := (.first [k!"TIMEOUT-AR"] .nil), item := (.prim .time) },
   /- 7047 -/ { field := k!"timeoutAs", path := (.first [k!"TIMEOUT-AS"] .nil), item := (.prim .time) },
   /- 7048 -/ { field := k!"tpAddressRef", path := (.first [k!"TP-ADDRESS-REF"] .nil), item := (.prim .ref) }]

/-- `readCanTpConfigTpNodes`, `parser/arxml_parser.py:7050-7057` (the `CanTpNode` it makes) -/
def readCanTpConfigTpNodes_CanTpNode : List RSlot :=
  [/- 7054 -/ { field := k!"short_name", path := (.first [k!"SHORT-NAME"] .nil), item := .name, req := .always }] ++
  /- 7055 -/ readCanTpNode

/-- `readChapterBody`, `parser/arxml_parser.py:4633-4640` -/
def readChapterBody : List RSlot :=
  /- 4634 -/ readIdentifiable ++
  [/- 4637 -/ { field := k!"helpEntry", path := .nil, item := (.attr k!"HELP-ENTRY" .lit) },
   /- 4640 -/ { field := k!"chapterModel", path := (.first [k!"CHAPTER-MODEL"] .nil), item := (.objs [(k!"CHAPTER-MODEL", k!"readChapterModel_ChapterModel")]) }]

/-- `readTopicContentOrMsrQuery`, `parser/arxml_parser.py:4697-4707` (the `TopicContentOrMsrQuery` it makes) -/
def readTopicContentOrMsrQuery_TopicContentOrMsrQuery : List RSlot :=
  [/- 4704 -/ { field := k!"msrQueryP1", path := (.first [k!"MSR-QUERY-P1"] .nil), item := (.objs [(k!"MSR-QUERY-P1", k!"readMsrQueryP1_MsrQueryP1")]) },
   /- 4706 -/ { field := k!"topicContent", path := (.first [k!"TOPIC-CONTENT"] .nil), item := (.objs [(k!"TOPIC-CONTENT", k!"readTopicContent_TopicContent")]) }]

/-- `readChapterContent`, `parser/arxml_parser.py:4690-4695` (the `ChapterContent` it makes) -/
def readChapterContent_ChapterContent : List RSlot :=
  /- 4694 -/ part k!"topicContent" .nil readTopicContentOrMsrQuery_TopicContentOrMsrQuery

/-- `readChapterModel`, `parser/arxml_parser.py:4642-4665` (the `TopicOrMsrQuery` it makes) -/
def readChapterModel_TopicOrMsrQuery : List RSlot :=
  [/- 4652 -/ { field := k!"topic1", path := (.all k!"TOPIC-1" .nil), item := (.objs [(k!"TOPIC-1", k!"readTopic1_Topic1")]) },
   /- 4654 -/ { field := k!"msrQueryTopic1", path := (.first [k!"MSR-QUERY-TOPIC-1"] .nil), item := (.objs [(k!"MSR-QUERY-TOPIC-1", k!"readMsrQueryTopic1_MsrQueryTopic1")]) }]

/-- `readChapterModel`, `parser/arxml_parser.py:4642-4665` (the `ChapterOrMsrQuery` it makes) -/
def readChapterModel_ChapterOrMsrQuery : List RSlot :=
  [/- 4661 -/ { field := k!"chapters", path := (.all k!"CHAPTER" .nil), item := (.objs [(k!"CHAPTER", k!"readChapter_Chapter")]) },
   /- 4663 -/ { field := k!"msrQueryChapter", path := (.first [k!"MSR-QUERY-CHAPTER"] .nil), item := (.objs [(k!"MSR-QUERY-CHAPTER", k!"readMsrQueryChapter_MsrQueryChapter")]) }]

/-- `readChapterModel`, `parser/arxml_parser.py:4642-4665` (the `ChapterModel` it makes) -/
def readChapterModel_ChapterModel : List RSlot :=
  [/- 4646 -/ { field := k!"chapterContent", path := (.first [k!"CHAPTER-CONTENT"] .nil), item := (.objs [(k!"CHAPTER-CONTENT", k!"readChapterContent_ChapterContent")]) }] ++
  /- 4655 -/ part k!"topic1" .nil readChapterModel_TopicOrMsrQuery ++
  /- 4664 -/ part k!"chapter" .nil readChapterModel_ChapterOrMsrQuery

/-- `readChapter`, `parser/arxml_parser.py:4628-4631` (the `Chapter` it makes); also `readSwComponentDocumentationElement` -/
def readChapter_Chapter : List RSlot :=
  [/- 4629 -/ { field := k!"short_name", path := (.first [k!"SHORT-NAME"] .nil), item := .name, req := .always }] ++
  /- 4630 -/ readChapterBody

/-- `readClientServerInterfaceMappingOperationMappings`, `parser/arxml_parser.py:8974-8982` -/
def readClientServerInterfaceMappingOperationMappings : List RSlot :=
  [/- 8980 -/ { field := k!"operationMappings", path := (.all k!"OPERATION-MAPPINGS" (.all k!"CLIENT-SERVER-OPERATION-MAPPING" .nil)), item := (.objs [(k!"CLIENT-SERVER-OPERATION-MAPPING", k!"readClientServerInterfaceMappingOperationMappings_ClientServerOperationMapping")]) },
   /- 8982 -/ { field := 0, path := (.all k!"OPERATION-MAPPINGS" (.all 0 .nil)), item := (.guard [k!"CLIENT-SERVER-OPERATION-MAPPING"] .unsupported) }]

/-- `readClientServerInterfaceMapping`, `parser/arxml_parser.py:8984-8987` -/
def readClientServerInterfaceMapping : List RSlot :=
  /- 8986 -/ readIdentifiable ++
  /- 8987 -/ readClientServerInterfaceMappingOperationMappings

/-- `readClientServerOperationMapping`, `parser/arxml_parser.py:8970-8972` -/
def readClientServerOperationMapping : List RSlot :=
  [/- 8971 -/ { field := k!"firstOperationRef", path := (.first [k!"FIRST-OPERATION-REF"] .nil), item := (.prim .ref) },
   /- 8972 -/ { field := k!"secondOperationRef", path := (.first [k!"SECOND-OPERATION-REF"] .nil), item := (.prim .ref) }]

/-- `readClientServerInterfaceMappingOperationMappings`, `parser/arxml_parser.py:8974-8982` (the `ClientServerOperationMapping` it makes) -/
def readClientServerInterfaceMappingOperationMappings_ClientServerOperationMapping : List RSlot :=
  /- 8979 -/ readClientServerOperationMapping

/-- `readClientServerOperationArguments`, `parser/arxml_parser.py:5040-5047` -/
def readClientServerOperationArguments : List RSlot :=
  [/- 5044 -/ { field := k!"arguments", path := (.all k!"ARGUMENTS" (.all k!"ARGUMENT-DATA-PROTOTYPE" .nil)), item := (.objs [(k!"ARGUMENT-DATA-PROTOTYPE", k!"readClientServerOperationArguments_ArgumentDataPrototype")]), elems := true, named := true },
   /- 5047 -/ { field := 0, path := (.all k!"ARGUMENTS" (.all 0 .nil)), item := (.guard [k!"ARGUMENT-DATA-PROTOTYPE"] .unsupported) }]

/-- `readPossibleErrorRefs`, `parser/arxml_parser.py:5049-5053` -/
def readPossibleErrorRefs : List RSlot :=
  [/- 5053 -/ { field := k!"possibleErrorRefs", path := (.first [k!"POSSIBLE-ERROR-REFS"] (.all k!"POSSIBLE-ERROR-REF" .nil)), item := (.prim .ref) }]

/-- `readClientServerOperation`, `parser/arxml_parser.py:5055-5059` -/
def readClientServerOperation : List RSlot :=
  /- 5056 -/ readIdentifiable ++
  /- 5057 -/ readClientServerOperationArguments ++
  [/- 5058 -/ { field := k!"diagArgIntegrity", path := (.first [k!"DIAG-ARG-INTEGRITY"] .nil), item := (.prim .boolean) }] ++
  /- 5059 -/ readPossibleErrorRefs

/-- `readClientServerInterfaceOperations`, `parser/arxml_parser.py:5061-5068` (the `ClientServerOperation` it makes) -/
def readClientServerInterfaceOperations_ClientServerOperation : List RSlot :=
  [/- 5065 -/ { field := k!"short_name", path := (.first [k!"SHORT-NAME"] .nil), item := .name, req := .always }] ++
  /- 5066 -/ readClientServerOperation

/-- `readClientServerOperationArguments`, `parser/arxml_parser.py:5040-5047` (the `ArgumentDataPrototype` it makes) -/
def readClientServerOperationArguments_ArgumentDataPrototype : List RSlot :=
  [/- 5044 -/ { field := k!"short_name", path := (.first [k!"SHORT-NAME"] .nil), item := .name, req := .always }] ++
  /- 5045 -/ readArgumentDataPrototype

/-- `readCodeDescriptor`, `parser/arxml_parser.py:2502-2509` (the `Code` it makes) -/
def readCodeDescriptor_Code : List RSlot :=
  [/- 2506 -/ { field := k!"short_name", path := (.first [k!"SHORT-NAME"] .nil), item := .name, req := .always }] ++
  /- 2507 -/ readIdentifiable ++
  /- 2508 -/ readArtifactDescriptor ++
  /- 2509 -/ readCallbackHeaderRefs

/-- `readCommConnectorPort`, `parser/arxml_parser.py:8127-8129` -/
def readCommConnectorPort : List RSlot :=
  /- 8128 -/ readIdentifiable ++
  [/- 8129 -/ { field := k!"communicationDirection", path := (.first [k!"COMMUNICATION-DIRECTION"] .nil), item := (.prim .lit) }]

/-- `readCommunicationClusterPhysicalChannels`, `parser/arxml_parser.py:6255-6271` (the `CanPhysicalChannel` it makes) -/
def readCommunicationClusterPhysicalChannels_CanPhysicalChannel : List RSlot :=
  [/- 6259 -/ { field := k!"short_name", path := (.first [k!"SHORT-NAME"] .nil), item := .name, req := .always }] ++
  /- 6260 -/ readCanPhysicalChannel

/-- `readEthernetPhysicalChannelNetworkEndPoints`, `parser/arxml_parser.py:5964-5967` -/
def readEthernetPhysicalChannelNetworkEndPoints : List RSlot :=
  [/- 5966 -/ { field := k!"networkEndpoints", path := (.all k!"NETWORK-ENDPOINTS" (.all k!"NETWORK-ENDPOINT" .nil)), item := (.objs [(k!"NETWORK-ENDPOINT", k!"readEthernetPhysicalChannelNetworkEndPoints_NetworkEndpoint")]), elems := true, named := true, fresh := true }]

/-- `readEthernetPhysicalChannelVlan`, `parser/arxml_parser.py:6239-6243` -/
def readEthernetPhysicalChannelVlan : List RSlot :=
  [/- 6242 -/ { field := k!"vlan", path := (.first [k!"VLAN"] .nil), item := (.objs [(k!"VLAN", k!"readEthernetPhysicalChannelVlan_VlanConfig")]), elems := true, named := true, fresh := true }]

/-- `readEthernetPhysicalChannel`, `parser/arxml_parser.py:6245-6249` -/
def readEthernetPhysicalChannel : List RSlot :=
  /- 6246 -/ readPhysicalChannel ++
  /- 6247 -/ readEthernetPhysicalChannelNetworkEndPoints ++
  [/- 6248 -/ { field := k!"soAdConfig", path := (.first [k!"SO-AD-CONFIG"] .nil), item := (.objs [(k!"SO-AD-CONFIG", k!"getSoAdConfig_SoAdConfig")]) }] ++
  /- 6249 -/ readEthernetPhysicalChannelVlan

/-- `readCommunicationClusterPhysicalChannels`, `parser/arxml_parser.py:6255-6271` (the `EthernetPhysicalChannel` it makes) -/
def readCommunicationClusterPhysicalChannels_EthernetPhysicalChannel : List RSlot :=
  [/- 6265 -/ { field := k!"short_name", path := (.first [k!"SHORT-NAME"] .nil), item := .name, req := .always }] ++
  /- 6266 -/ readEthernetPhysicalChannel

/-- `readFlexrayPhysicalChannel`, `parser/arxml_parser.py:6251-6253` -/
def readFlexrayPhysicalChannel : List RSlot :=
  /- 6252 -/ readPhysicalChannel ++
  [/- 6253 -/ { field := k!"channelName", path := (.first [k!"CHANNEL-NAME"] .nil), item := (.prim .lit) }]

/-- `readCommunicationClusterPhysicalChannels`, `parser/arxml_parser.py:6255-6271` (the `FlexrayPhysicalChannel` it makes) -/
def readCommunicationClusterPhysicalChannels_FlexrayPhysicalChannel : List RSlot :=
  [/- 6268 -/ { field := k!"short_name", path := (.first [k!"SHORT-NAME"] .nil), item := .name, req := .always }] ++
  /- 6269 -/ readFlexrayPhysicalChannel

/-- `readLinPhysicalChannelScheduleTables`, `parser/arxml_parser.py:5908-5915` -/
def readLinPhysicalChannelScheduleTables : List RSlot :=
  [/- 5912 -/ { field := k!"scheduleTables", path := (.all k!"SCHEDULE-TABLES" (.all k!"LIN-SCHEDULE-TABLE" .nil)), item := (.objs [(k!"LIN-SCHEDULE-TABLE", k!"readLinPhysicalChannelScheduleTables_LinScheduleTable")]), elems := true, named := true, fresh := true },
   /- 5915 -/ { field := 0, path := (.all k!"SCHEDULE-TABLES" (.all 0 .nil)), item := (.guard [k!"LIN-SCHEDULE-TABLE"] .unsupported) }]

/-- `readLinPhysicalChannel`, `parser/arxml_parser.py:5917-5919` -/
def readLinPhysicalChannel : List RSlot :=
  /- 5918 -/ readPhysicalChannel ++
  /- 5919 -/ readLinPhysicalChannelScheduleTables

/-- `readCommunicationClusterPhysicalChannels`, `parser/arxml_parser.py:6255-6271` (the `LinPhysicalChannel` it makes) -/
def readCommunicationClusterPhysicalChannels_LinPhysicalChannel : List RSlot :=
  [/- 6262 -/ { field := k!"short_name", path := (.first [k!"SHORT-NAME"] .nil), item := .name, req := .always }] ++
  /- 6263 -/ readLinPhysicalChannel

/-- `readFramePort`, `parser/arxml_parser.py:8131-8132` -/
def readFramePort : List RSlot :=
  /- 8132 -/ readCommConnectorPort

/-- `readCommunicationConnectorEcuCommPortInstances`, `parser/arxml_parser.py:8144-8158` (the `FramePort` it makes) -/
def readCommunicationConnectorEcuCommPortInstances_FramePort : List RSlot :=
  [/- 8149 -/ { field := k!"short_name", path := (.first [k!"SHORT-NAME"] .nil), item := .name, req := .always }] ++
  /- 8150 -/ readFramePort

/-- `readIPduPort`, `parser/arxml_parser.py:8134-8138` -/
def readIPduPort : List RSlot :=
  /- 8135 -/ readCommConnectorPort ++
  [/- 8136 -/ { field := k!"keyId", path := (.first [k!"KEY-ID"] .nil), item := (.prim .positive) },
   /- 8137 -/ { field := k!"rxSecurityVerification", path := (.first [k!"RX-SECURITY-VERIFICATION"] .nil), item := (.prim .boolean) },
   /- 8138 -/ { field := k!"useAuthDataFreshness", path := (.first [k!"USE-AUTH-DATA-FRESHNESS"] .nil), item := (.prim .boolean) }]

/-- `readCommunicationConnectorEcuCommPortInstances`, `parser/arxml_parser.py:8144-8158` (the `IPduPort` it makes) -/
def readCommunicationConnectorEcuCommPortInstances_IPduPort : List RSlot :=
  [/- 8152 -/ { field := k!"short_name", path := (.first [k!"SHORT-NAME"] .nil), item := .name, req := .always }] ++
  /- 8153 -/ readIPduPort

/-- `readISignalPort`, `parser/arxml_parser.py:8140-8142` -/
def readISignalPort : List RSlot :=
  /- 8141 -/ readCommConnectorPort ++
  [/- 8142 -/ { field := k!"timeout", path := (.first [k!"TIMEOUT"] .nil), item := (.prim .time) }]

/-- `readCommunicationConnectorEcuCommPortInstances`, `parser/arxml_parser.py:8144-8158` (the `ISignalPort` it makes) -/
def readCommunicationConnectorEcuCommPortInstances_ISignalPort : List RSlot :=
  [/- 8155 -/ { field := k!"short_name", path := (.first [k!"SHORT-NAME"] .nil), item := .name, req := .always }] ++
  /- 8156 -/ readISignalPort

/-- `readLinker`, `parser/arxml_parser.py:2528-2537` (the `Linker` it makes); also `readCompiler` -/
def readLinker_Linker : List RSlot :=
  [/- 2532 -/ { field := k!"short_name", path := (.first [k!"SHORT-NAME"] .nil), item := .name, req := .always }] ++
  /- 2533 -/ readIdentifiable ++
  [/- 2534 -/ { field := k!"name", path := (.first [k!"NAME"] .nil), item := (.prim .lit) },
   /- 2535 -/ { field := k!"options", path := (.first [k!"OPTIONS"] .nil), item := (.prim .lit) },
   /- 2536 -/ { field := k!"vendor", path := (.first [k!"VENDOR"] .nil), item := (.prim .lit) },
   /- 2537 -/ { field := k!"version", path := (.first [k!"VERSION"] .nil), item := (.prim .lit) }]

/-- `readSwComponentPrototype`, `parser/arxml_parser.py:4913-4916` -/
def readSwComponentPrototype : List RSlot :=
  /- 4915 -/ readIdentifiable ++
  [/- 4916 -/ { field := k!"typeTRef", path := (.first [k!"TYPE-TREF"] .nil), item := (.prim .ref) }]

/-- `readCompositionSwComponentTypeComponents`, `parser/arxml_parser.py:4918-4925` (the `SwComponentPrototype` it makes) -/
def readCompositionSwComponentTypeComponents_SwComponentPrototype : List RSlot :=
  [/- 4922 -/ { field := k!"short_name", path := (.first [k!"SHORT-NAME"] .nil), item := .name, req := .always }] ++
  /- 4923 -/ readSwComponentPrototype

/-- `readInstantiationRTEEventProps`, `parser/arxml_parser.py:4944-4951` -/
def readInstantiationRTEEventProps : List RSlot :=
  [/- 4950 -/ { field := k!"refinedEventIRef", path := (.first [k!"REFINED-EVENT-IREF"] .nil), item := (.objs [(k!"REFINED-EVENT-IREF", k!"readInstantiationRTEEventProps_InstanceEventInCompositionInstanceRef")]) },
   /- 4951 -/ { field := k!"shortLabel", path := (.first [k!"SHORT-LABEL"] .nil), item := (.prim .lit) }]

/-- `readInstantiationTimingEventProps`, `parser/arxml_parser.py:4953-4955` -/
def readInstantiationTimingEventProps : List RSlot :=
  /- 4954 -/ readInstantiationRTEEventProps ++
  [/- 4955 -/ { field := k!"period", path := (.first [k!"PERIOD"] .nil), item := (.prim .time) }]

/-- `readCompositionSwComponentTypeInstantiationRTEEventProps`, `parser/arxml_parser.py:4957-4964` (the `InstantiationTimingEventProps` it makes) -/
def readCompositionSwComponentTypeInstantiationRTEEventProps_InstantiationTimingEventProps : List RSlot :=
  [/- 4962 -/ { field := k!"timestamp", path := .nil, item := (.attr k!"T" .raw) },
   /- 4962 -/ { field := k!"uuid", path := .nil, item := (.attr k!"UUID" .raw) }] ++
  /- 4963 -/ readInstantiationTimingEventProps

/-- `readCompositionSwComponentTypeSwConnectors`, `parser/arxml_parser.py:4863-4876` (the `AssemblySwConnector` it makes) -/
def readCompositionSwComponentTypeSwConnectors_AssemblySwConnector : List RSlot :=
  [/- 4867 -/ { field := k!"short_name", path := (.first [k!"SHORT-NAME"] .nil), item := .name, req := .always }] ++
  /- 4868 -/ readAssemblySwConnector

/-- `readDelegationSwConnectorInnerPortIRef`, `parser/arxml_parser.py:4883-4900` -/
def readDelegationSwConnectorInnerPortIRef : List RSlot :=
  [/- 4883 -/ { field := k!"innerPortIRref", path := (.first [k!"INNER-PORT-IREF"] (.pick [k!"R-PORT-IN-COMPOSITION-INSTANCE-REF", k!"P-PORT-IN-COMPOSITION-INSTANCE-REF"] .nil)), item := (.objs [(k!"R-PORT-IN-COMPOSITION-INSTANCE-REF", k!"readDelegationSwConnectorInnerPortIRef_RPortInCompositionInstanceRef"), (k!"P-PORT-IN-COMPOSITION-INSTANCE-REF", k!"readDelegationSwConnectorInnerPortIRef_PPortInCompositionInstanceRef")]), req := .strict }]

/-- `readDelegationSwConnector`, `parser/arxml_parser.py:4902-4910` -/
def readDelegationSwConnector : List RSlot :=
  /- 4904 -/ readSwConnector ++
  /- 4905 -/ readDelegationSwConnectorInnerPortIRef ++
  [/- 4910 -/ { field := k!"outerPortRef", path := (.first [k!"OUTER-PORT-REF"] .nil), item := (.prim .ref) }]

/-- `readCompositionSwComponentTypeSwConnectors`, `parser/arxml_parser.py:4863-4876` (the `DelegationSwConnector` it makes) -/
def readCompositionSwComponentTypeSwConnectors_DelegationSwConnector : List RSlot :=
  [/- 4870 -/ { field := k!"short_name", path := (.first [k!"SHORT-NAME"] .nil), item := .name, req := .always }] ++
  /- 4871 -/ readDelegationSwConnector

/-- `readPassThroughSwConnector`, `parser/arxml_parser.py:4878-4881` -/
def readPassThroughSwConnector : List RSlot :=
  /- 4879 -/ readSwConnector ++
  [/- 4880 -/ { field := k!"providedOuterPortRef", path := (.first [k!"PROVIDED-OUTER-PORT-REF"] .nil), item := (.prim .ref) },
   /- 4881 -/ { field := k!"requiredOuterPortRef", path := (.first [k!"REQUIRED-OUTER-PORT-REF"] .nil), item := (.prim .ref) }]

/-- `readCompositionSwComponentTypeSwConnectors`, `parser/arxml_parser.py:4863-4876` (the `PassThroughSwConnector` it makes) -/
def readCompositionSwComponentTypeSwConnectors_PassThroughSwConnector : List RSlot :=
  [/- 4873 -/ { field := k!"short_name", path := (.first [k!"SHORT-NAME"] .nil), item := .name, req := .always }] ++
  /- 4874 -/ readPassThroughSwConnector

/-- `readCompuNominatorDenominator`, `parser/arxml_parser.py:5157-5160` -/
def readCompuNominatorDenominator_COMPU_DENOMINATOR : List RSlot :=
  [/- 5160 -/ { field := k!"v", path := (.all k!"COMPU-DENOMINATOR" (.all k!"V" .nil)), item := (.prim .raw) }]

/-- `readCompuNominatorDenominator`, `parser/arxml_parser.py:5157-5160` -/
def readCompuNominatorDenominator_COMPU_NUMERATOR : List RSlot :=
  [/- 5160 -/ { field := k!"v", path := (.all k!"COMPU-NUMERATOR" (.all k!"V" .nil)), item := (.prim .raw) }]

/-- `readCompuRationCoeffs`, `parser/arxml_parser.py:5162-5172` (the `CompuNominatorDenominator` it makes) -/
def readCompuRationCoeffs_CompuNominatorDenominator : List RSlot :=
  /- 5170 -/ readCompuNominatorDenominator_COMPU_DENOMINATOR

/-- `readCompuRationCoeffs`, `parser/arxml_parser.py:5162-5172` (the `CompuNominatorDenominator` it makes) -/
def readCompuRationCoeffs_CompuNominatorDenominator_2 : List RSlot :=
  /- 5171 -/ readCompuNominatorDenominator_COMPU_NUMERATOR

/-- `readCompuRationCoeffs`, `parser/arxml_parser.py:5162-5172` (the `CompuRationalCoeffs` it makes) -/
def readCompuRationCoeffs_CompuRationalCoeffs : List RSlot :=
  /- 5168 -/ part k!"compuDenominator" .nil readCompuRationCoeffs_CompuNominatorDenominator ++
  /- 5169 -/ part k!"compuNumerator" .nil readCompuRationCoeffs_CompuNominatorDenominator_2

/-- `readConditionByFormula`, `parser/arxml_parser.py:809-821` -/
def readConditionByFormula : List RSlot :=
  [/- 810 -/ { field := k!"timestamp", path := .nil, item := (.attr k!"T" .raw) },
   /- 810 -/ { field := k!"uuid", path := .nil, item := (.attr k!"UUID" .raw) },
   /- 818 -/ { field := k!"bindingTime", path := .nil, item := (.attr k!"BINDING-TIME" (.mapped .bindingTime)) }]

/-- `readConsumedEventGroupRoutingGroupRefs`, `parser/arxml_parser.py:6069-6071` -/
def readConsumedEventGroupRoutingGroupRefs : List RSlot :=
  [/- 6071 -/ { field := k!"routingGroupRefs", path := (.all k!"ROUTING-GROUP-REFS" (.all k!"ROUTING-GROUP-REF" .nil)), item := (.prim .ref) }]

/-- `readConsumedEventGroup`, `parser/arxml_parser.py:6094-6099` -/
def readConsumedEventGroup : List RSlot :=
  /- 6095 -/ readIdentifiable ++
  [/- 6096 -/ { field := k!"applicationEndpointRef", path := (.first [k!"APPLICATION-ENDPOINT-REF"] .nil), item := (.prim .ref) },
   /- 6097 -/ { field := k!"eventGroupIdentifier", path := (.first [k!"EVENT-GROUP-IDENTIFIER"] .nil), item := (.prim .positive) }] ++
  /- 6098 -/ readConsumedEventGroupRoutingGroupRefs ++
  [/- 6099 -/ { field := k!"sdClientConfig", path := (.first [k!"SD-CLIENT-CONFIG"] .nil), item := (.objs [(k!"SD-CLIENT-CONFIG", k!"getSdClientConfig_SdClientConfig")]) }]

/-- `readConsumedServiceInstanceConsumedEventGroups`, `parser/arxml_parser.py:6101-6108` -/
def readConsumedServiceInstanceConsumedEventGroups : List RSlot :=
  [/- 6105 -/ { field := k!"consumedEventGroups", path := (.all k!"CONSUMED-EVENT-GROUPS" (.all k!"CONSUMED-EVENT-GROUP" .nil)), item := (.objs [(k!"CONSUMED-EVENT-GROUP", k!"readConsumedServiceInstanceConsumedEventGroups_ConsumedEventGroup")]), elems := true, named := true, fresh := true },
   /- 6108 -/ { field := 0, path := (.all k!"CONSUMED-EVENT-GROUPS" (.all 0 .nil)), item := (.guard [k!"CONSUMED-EVENT-GROUP"] .unsupported) }]

/-- `readConsumedServiceInstance`, `parser/arxml_parser.py:6110-6114` -/
def readConsumedServiceInstance : List RSlot :=
  /- 6111 -/ readIdentifiable ++
  /- 6112 -/ readConsumedServiceInstanceConsumedEventGroups ++
  [/- 6113 -/ { field := k!"providedServiceInstanceRef", path := (.first [k!"PROVIDED-SERVICE-INSTANCE-REF"] .nil), item := (.prim .ref) },
   /- 6114 -/ { field := k!"sdClientConfig", path := (.first [k!"SD-CLIENT-CONFIG"] .nil), item := (.objs [(k!"SD-CLIENT-CONFIG", k!"getSdClientConfig_SdClientConfig")]) }]

/-- `readConsumedServiceInstanceConsumedEventGroups`, `parser/arxml_parser.py:6101-6108` (the `ConsumedEventGroup` it makes) -/
def readConsumedServiceInstanceConsumedEventGroups_ConsumedEventGroup : List RSlot :=
  [/- 6105 -/ { field := k!"short_name", path := (.first [k!"SHORT-NAME"] .nil), item := .name, req := .always }] ++
  /- 6106 -/ readConsumedEventGroup

/-- `readContainedIPduProps`, `parser/arxml_parser.py:6729-6741` (the `ContainedIPduProps` it makes) -/
def readContainedIPduProps_ContainedIPduProps : List RSlot :=
  [/- 6734 -/ { field := k!"collectionSemantics", path := (.first [k!"COLLECTION-SEMANTICS"] .nil), item := (.prim .lit) },
   /- 6735 -/ { field := k!"headerIdLongHeader", path := (.first [k!"HEADER-ID-LONG-HEADER"] .nil), item := (.prim .positive) },
   /- 6736 -/ { field := k!"headerIdShortHeader", path := (.first [k!"HEADER-ID-SHORT-HEADER"] .nil), item := (.prim .positive) },
   /- 6737 -/ { field := k!"offset", path := (.first [k!"OFFSET"] .nil), item := (.prim .numerical) },
   /- 6738 -/ { field := k!"timeout", path := (.first [k!"TIMEOUT"] .nil), item := (.prim .numerical) },
   /- 6739 -/ { field := k!"trigger", path := (.first [k!"TRIGGER"] .nil), item := (.prim .lit) },
   /- 6740 -/ { field := k!"updateIndicationBitPosition", path := (.first [k!"UPDATE-INDICATION-BIT-POSITION"] .nil), item := (.prim .numerical) }]

/-- `readCouplingPortVlanMemberships`, `parser/arxml_parser.py:8062-8070` -/
def readCouplingPortVlanMemberships : List RSlot :=
  [/- 8068 -/ { field := k!"vlanMemberships", path := (.all k!"VLAN-MEMBERSHIPS" (.all k!"VLAN-MEMBERSHIP" .nil)), item := (.objs [(k!"VLAN-MEMBERSHIP", k!"readCouplingPortVlanMemberships_VlanMembership")]) },
   /- 8070 -/ { field := 0, path := (.all k!"VLAN-MEMBERSHIPS" (.all 0 .nil)), item := (.guard [k!"VLAN-MEMBERSHIP"] .unsupported) }]

/-- `readCouplingPort`, `parser/arxml_parser.py:8072-8076` -/
def readCouplingPort : List RSlot :=
  /- 8073 -/ readIdentifiable ++
  [/- 8074 -/ { field := k!"couplingPortDetails", path := (.first [k!"COUPLING-PORT-DETAILS"] .nil), item := (.objs [(k!"COUPLING-PORT-DETAILS", k!"getCouplingPortDetails_CouplingPortDetails")]) },
   /- 8075 -/ { field := k!"macLayerType", path := (.first [k!"MAC-LAYER-TYPE"] .nil), item := (.prim .lit) }] ++
  /- 8076 -/ readCouplingPortVlanMemberships

/-- `readCouplingPortScheduler`, `parser/arxml_parser.py:8019-8021` -/
def readCouplingPortScheduler : List RSlot :=
  /- 8020 -/ readTrigger ++
  [/- 8021 -/ { field := k!"portScheduler", path := (.first [k!"PORT-SCHEDULER"] .nil), item := (.prim .lit) }]

/-- `readCouplingPortDetailsCouplingPortStructuralElements`, `parser/arxml_parser.py:8023-8033` (the `CouplingPortScheduler` it makes) -/
def readCouplingPortDetailsCouplingPortStructuralElements_CouplingPortScheduler : List RSlot :=
  [/- 8030 -/ { field := k!"short_name", path := (.first [k!"SHORT-NAME"] .nil), item := .name, req := .always }] ++
  /- 8031 -/ readCouplingPortScheduler

/-- `readEthernetPriorityRegeneration`, `parser/arxml_parser.py:8035-8037` -/
def readEthernetPriorityRegeneration : List RSlot :=
  [/- 8036 -/ { field := k!"ingressPriority", path := (.first [k!"INGRESS-PRIORITY"] .nil), item := (.prim .positive) },
   /- 8037 -/ { field := k!"regeneratedPriority", path := (.first [k!"REGENERATED-PRIORITY"] .nil), item := (.prim .positive) }]

/-- `readCouplingPortDetailsEthernetPriorityRegenerations`, `parser/arxml_parser.py:8039-8046` (the `EthernetPriorityRegeneration` it makes) -/
def readCouplingPortDetailsEthernetPriorityRegenerations_EthernetPriorityRegeneration : List RSlot :=
  [/- 8043 -/ { field := k!"short_name", path := (.first [k!"SHORT-NAME"] .nil), item := .name, req := .always }] ++
  /- 8044 -/ readEthernetPriorityRegeneration

/-- `readVlanMembership`, `parser/arxml_parser.py:8058-8060` -/
def readVlanMembership : List RSlot :=
  [/- 8059 -/ { field := k!"sendActivity", path := (.first [k!"SEND-ACTIVITY"] .nil), item := (.prim .lit) },
   /- 8060 -/ { field := k!"vlanRef", path := (.first [k!"VLAN-REF"] .nil), item := (.prim .ref) }]

/-- `readCouplingPortVlanMemberships`, `parser/arxml_parser.py:8062-8070` (the `VlanMembership` it makes) -/
def readCouplingPortVlanMemberships_VlanMembership : List RSlot :=
  /- 8067 -/ readVlanMembership

/-- `readCycleRepetition`, `parser/arxml_parser.py:5779-5782` -/
def readCycleRepetition : List RSlot :=
  /- 5780 -/ readPPortComSpec ++
  [/- 5781 -/ { field := k!"BaseCycle", path := (.first [k!"BASE-CYCLE"] .nil), item := (.prim .integer) },
   /- 5782 -/ { field := k!"CycleRepetition", path := (.first [k!"CYCLE-REPETITION"] .nil), item := (.prim .lit) }]

/-- `readInternalConstrs`, `parser/arxml_parser.py:5411-5423` -/
def readInternalConstrs : List RSlot :=
  [/- 5423 -/ { field := k!"internalConstrs", path := (.first [k!"INTERNAL-CONSTRS"] .nil), item := (.objs [(k!"INTERNAL-CONSTRS", k!"readInternalConstrs_InternalConstrs")]) }]

/-- `readPhysConstrs`, `parser/arxml_parser.py:5437-5450` -/
def readPhysConstrs : List RSlot :=
  [/- 5450 -/ { field := k!"physConstrs", path := (.first [k!"PHYS-CONSTRS"] .nil), item := (.objs [(k!"PHYS-CONSTRS", k!"readPhysConstrs_PhysConstrs")]) }]

/-- `readDataConstrRule`, `parser/arxml_parser.py:5452-5460` (the `DataConstrRule` it makes) -/
def readDataConstrRule_DataConstrRule : List RSlot :=
  [/- 5456 -/ { field := k!"timestamp", path := .nil, item := (.attr k!"T" .raw) },
   /- 5456 -/ { field := k!"uuid", path := .nil, item := (.attr k!"UUID" .raw) },
   /- 5457 -/ { field := k!"constrLevel", path := (.first [k!"CONSTR-LEVEL"] .nil), item := (.prim .numerical) }] ++
  /- 5458 -/ readInternalConstrs ++
  /- 5459 -/ readPhysConstrs

/-- `readInnerDataPrototypeGroupInCompositionInstanceRef`, `parser/arxml_parser.py:3198-3201` -/
def readInnerDataPrototypeGroupInCompositionInstanceRef : List RSlot :=
  [/- 3200 -/ { field := k!"contextSwComponentPrototypeRefs", path := (.all k!"CONTEXT-SW-COMPONENT-PROTOTYPE-REF" .nil), item := (.prim .ref) },
   /- 3201 -/ { field := k!"targetDataPrototypeGroupRef", path := (.first [k!"TARGET-DATA-PROTOTYPE-GROUP-REF"] .nil), item := (.prim .ref) }]

/-- `readDataPrototypeGroupDataPrototypeGroupIRefs`, `parser/arxml_parser.py:3219-3223` (the `InnerDataPrototypeGroupInCompositionInstanceRef` it makes) -/
def readDataPrototypeGroupDataPrototypeGroupIRefs_InnerDataPrototypeGroupInCompositionInstanceRef : List RSlot :=
  /- 3222 -/ readInnerDataPrototypeGroupInCompositionInstanceRef

/-- `readVariableDataPrototypeInCompositionInstanceRef`, `parser/arxml_parser.py:3213-3217` -/
def readVariableDataPrototypeInCompositionInstanceRef : List RSlot :=
  [/- 3215 -/ { field := k!"contextSwComponentPrototypeRefs", path := (.all k!"CONTEXT-SW-COMPONENT-PROTOTYPE-REF" .nil), item := (.prim .ref) },
   /- 3216 -/ { field := k!"contextPortPrototypeRef", path := (.first [k!"CONTEXT-PORT-PROTOTYPE-REF"] .nil), item := (.prim .ref) },
   /- 3217 -/ { field := k!"targetVariableDataPrototypeRef", path := (.first [k!"TARGET-VARIABLE-DATA-PROTOTYPE-REF"] .nil), item := (.prim .ref) }]

/-- `readDataPrototypeGroupImplicitDataAccessIRefs`, `parser/arxml_parser.py:3225-3229` (the `VariableDataPrototypeInCompositionInstanceRef` it makes) -/
def readDataPrototypeGroupImplicitDataAccessIRefs_VariableDataPrototypeInCompositionInstanceRef : List RSlot :=
  /- 3228 -/ readVariableDataPrototypeInCompositionInstanceRef

/-- `readDataPrototypeInClientServerInterfaceInstanceRef`, `parser/arxml_parser.py:8499-8505` -/
def readDataPrototypeInClientServerInterfaceInstanceRef : List RSlot :=
  [/- 8500 -/ { field := k!"timestamp", path := .nil, item := (.attr k!"T" .raw) },
   /- 8500 -/ { field := k!"uuid", path := .nil, item := (.attr k!"UUID" .raw) },
   /- 8501 -/ { field := k!"baseRef", path := (.first [k!"BASE"] .nil), item := (.prim .ref) },
   /- 8503 -/ { field := k!"contextDataPrototypeInCsRefs", path := (.all k!"CONTEXT-DATA-PROTOTYPE-IN-CS" (.pick [k!"CONTEXT-DATA-PROTOTYPE-IN-CS", k!"CONTEXT-DATA-PROTOTYPE"] .nil)), item := (.prim .ref) },
   /- 8504 -/ { field := k!"rootDataPrototypeInCsRef", path := (.first [k!"ROOT-DATA-PROTOTYPE-IN-CS"] .nil), item := (.prim .ref) },
   /- 8505 -/ { field := k!"targetDataPrototypeInCsRef", path := (.first [k!"TARGET-DATA-PROTOTYPE-IN-CS"] .nil), item := (.prim .ref) }]

/-- `readDataPrototypeInPortInterfaceRef`, `parser/arxml_parser.py:8482-8489` -/
def readDataPrototypeInPortInterfaceRef : List RSlot :=
  [/- 8483 -/ { field := k!"timestamp", path := .nil, item := (.attr k!"T" .raw) },
   /- 8483 -/ { field := k!"uuid", path := .nil, item := (.attr k!"UUID" .raw) },
   /- 8484 -/ { field := k!"tagId", path := (.first [k!"TAG-ID"] .nil), item := (.prim .positive) },
   /- 8489 -/ { field := k!"dataPrototypeInClientServerInterface", path := (.first [k!"DATA-PROTOTYPE-IN-CLIENT-SERVER-INTERFACE-REF"] .nil), item := (.objs [(k!"DATA-PROTOTYPE-IN-CLIENT-SERVER-INTERFACE-REF", k!"readDataPrototypeInPortInterfaceRef_DataPrototypeInClientServerInterfaceInstanceRef")]) }]

/-- `readDataPrototypeInPortInterfaceRef`, `parser/arxml_parser.py:8482-8489` (the `DataPrototypeInClientServerInterfaceInstanceRef` it makes) -/
def readDataPrototypeInPortInterfaceRef_DataPrototypeInClientServerInterfaceInstanceRef : List RSlot :=
  /- 8488 -/ readDataPrototypeInClientServerInterfaceInstanceRef

/-- `readDataPrototypeTransformationProps`, `parser/arxml_parser.py:8507-8515` -/
def readDataPrototypeTransformationProps : List RSlot :=
  [/- 8508 -/ { field := k!"timestamp", path := .nil, item := (.attr k!"T" .raw) },
   /- 8508 -/ { field := k!"uuid", path := .nil, item := (.attr k!"UUID" .raw) },
   /- 8513 -/ { field := k!"dataPrototypeInPortInterfaceRef", path := (.first [k!"DATA-PROTOTYPE-IN-PORT-INTERFACE-REF"] .nil), item := (.objs [(k!"DATA-PROTOTYPE-IN-PORT-INTERFACE-REF", k!"readDataPrototypeTransformationProps_DataPrototypeInPortInterfaceRef")]) },
   /- 8514 -/ { field := k!"networkRepresentationProps", path := (.first [k!"NETWORK-REPRESENTATION-PROPS"] .nil), item := (.objs [(k!"NETWORK-REPRESENTATION-PROPS", k!"getSwDataDefProps_SwDataDefProps")]) },
   /- 8515 -/ { field := k!"transformationProps", path := (.first [k!"TRANSFORMATION-PROPS"] .nil), item := (.prim .ref) }]

/-- `readDataPrototypeTransformationProps`, `parser/arxml_parser.py:8507-8515` (the `DataPrototypeInPortInterfaceRef` it makes) -/
def readDataPrototypeTransformationProps_DataPrototypeInPortInterfaceRef : List RSlot :=
  /- 8512 -/ readDataPrototypeInPortInterfaceRef

/-- `readRVariableInAtomicSwcInstanceRef`, `parser/arxml_parser.py:3119-3125` -/
def readRVariableInAtomicSwcInstanceRef : List RSlot :=
  [/- 3125 -/ { field := k!"dataIRef", path := (.first [k!"DATA-IREF"] .nil), item := (.objs [(k!"DATA-IREF", k!"readRVariableInAtomicSwcInstanceRef_RVariableInAtomicSwcInstanceRef")]) }]

/-- `readDataReceivedEvent`, `parser/arxml_parser.py:3480-3483` -/
def readDataReceivedEvent : List RSlot :=
  /- 3482 -/ readRTEEvent ++
  /- 3483 -/ readRVariableInAtomicSwcInstanceRef

/-- `readDataTransformationTransformerChainRefs`, `parser/arxml_parser.py:7185-7187` -/
def readDataTransformationTransformerChainRefs : List RSlot :=
  [/- 7187 -/ { field := k!"transformerChainRefs", path := (.all k!"TRANSFORMER-CHAIN-REFS" (.all k!"TRANSFORMER-CHAIN-REF" .nil)), item := (.prim .ref) }]

/-- `readDataTransformation`, `parser/arxml_parser.py:7189-7193` -/
def readDataTransformation : List RSlot :=
  /- 7190 -/ readIdentifiable ++
  [/- 7191 -/ { field := k!"dataTransformationKind", path := (.first [k!"DATA-TRANSFORMATION-KIND"] .nil), item := (.prim .lit) },
   /- 7192 -/ { field := k!"executeDespiteDataUnavailability", path := (.first [k!"EXECUTE-DESPITE-DATA-UNAVAILABILITY"] .nil), item := (.prim .boolean) }] ++
  /- 7193 -/ readDataTransformationTransformerChainRefs

/-- `readDataTransformationSetDataTransformations`, `parser/arxml_parser.py:7195-7202` (the `DataTransformation` it makes) -/
def readDataTransformationSetDataTransformations_DataTransformation : List RSlot :=
  [/- 7199 -/ { field := k!"short_name", path := (.first [k!"SHORT-NAME"] .nil), item := .name, req := .always }] ++
  /- 7200 -/ readDataTransformation

/-- `readTransformationTechnologyTransformationDescriptions`, `parser/arxml_parser.py:7249-7257` -/
def readTransformationTechnologyTransformationDescriptions : List RSlot :=
  [/- 7255 -/ { field := k!"transformationDescription", path := (.all k!"TRANSFORMATION-DESCRIPTIONS" (.all k!"END-TO-END-TRANSFORMATION-DESCRIPTION" .nil)), item := (.objs [(k!"END-TO-END-TRANSFORMATION-DESCRIPTION", k!"readTransformationTechnologyTransformationDescriptions_EndToEndTransformationDescription")]), last := true },
   /- 7257 -/ { field := 0, path := (.all k!"TRANSFORMATION-DESCRIPTIONS" (.all 0 .nil)), item := (.guard [k!"END-TO-END-TRANSFORMATION-DESCRIPTION"] .unsupported) }]

/-- `readTransformationTechnology`, `parser/arxml_parser.py:7259-7267` -/
def readTransformationTechnology : List RSlot :=
  /- 7260 -/ readIdentifiable ++
  [/- 7261 -/ { field := k!"bufferProperties", path := (.first [k!"BUFFER-PROPERTIES"] .nil), item := (.objs [(k!"BUFFER-PROPERTIES", k!"getBufferProperties_BufferProperties")]) },
   /- 7262 -/ { field := k!"hasInternalState", path := (.first [k!"HAS-INTERNAL-STATE"] .nil), item := (.prim .boolean) },
   /- 7263 -/ { field := k!"needsOriginalData", path := (.first [k!"NEEDS-ORIGINAL-DATA"] .nil), item := (.prim .boolean) },
   /- 7264 -/ { field := k!"protocol", path := (.first [k!"PROTOCOL"] .nil), item := (.prim .lit) }] ++
  /- 7265 -/ readTransformationTechnologyTransformationDescriptions ++
  [/- 7266 -/ { field := k!"transformerClass", path := (.first [k!"TRANSFORMER-CLASS"] .nil), item := (.prim .lit) },
   /- 7267 -/ { field := k!"version", path := (.first [k!"VERSION"] .nil), item := (.prim .lit) }]

/-- `readDataTransformationSetTransformationTechnologies`, `parser/arxml_parser.py:7269-7276` (the `TransformationTechnology` it makes) -/
def readDataTransformationSetTransformationTechnologies_TransformationTechnology : List RSlot :=
  [/- 7273 -/ { field := k!"short_name", path := (.first [k!"SHORT-NAME"] .nil), item := .name, req := .always }] ++
  /- 7274 -/ readTransformationTechnology

/-- `readDataTypeMaps`, `parser/arxml_parser.py:4977-4986` (the `DataTypeMap` it makes) -/
def readDataTypeMaps_DataTypeMap : List RSlot :=
  [/- 4980 -/ { field := k!"timestamp", path := .nil, item := (.attr k!"T" .raw) },
   /- 4980 -/ { field := k!"uuid", path := .nil, item := (.attr k!"UUID" .raw) },
   /- 4981 -/ { field := k!"applicationDataTypeRef", path := (.first [k!"APPLICATION-DATA-TYPE-REF"] .nil), item := (.prim .ref) },
   /- 4982 -/ { field := k!"implementationDataTypeRef", path := (.first [k!"IMPLEMENTATION-DATA-TYPE-REF"] .nil), item := (.prim .ref) }]

/-- `readDelegationSwConnectorInnerPortIRef`, `parser/arxml_parser.py:4883-4900` (the `PPortInCompositionInstanceRef` it makes) -/
def readDelegationSwConnectorInnerPortIRef_PPortInCompositionInstanceRef : List RSlot :=
  /- 4883 -/ readPPortInCompositionInstanceRef

/-- `readDelegationSwConnectorInnerPortIRef`, `parser/arxml_parser.py:4883-4900` (the `RPortInCompositionInstanceRef` it makes) -/
def readDelegationSwConnectorInnerPortIRef_RPortInCompositionInstanceRef : List RSlot :=
  /- 4883 -/ readRPortInCompositionInstanceRef

/-- `readDependencyOnArtifact`, `parser/arxml_parser.py:2539-2553` (the `DependencyOnArtifact` it makes) -/
def readDependencyOnArtifact_DependencyOnArtifact : List RSlot :=
  [/- 2543 -/ { field := k!"short_name", path := (.first [k!"SHORT-NAME"] .nil), item := .name, req := .always }] ++
  /- 2544 -/ readIdentifiable ++
  [/- 2547 -/ { field := k!"artifactDescriptor", path := (.first [k!"ARTIFACT-DESCRIPTOR"] .nil), item := (.objs [(k!"ARTIFACT-DESCRIPTOR", k!"getAutosarEngineeringObject_AutosarEngineeringObject")]) },
   /- 2553 -/ { field := k!"usages", path := (.first [k!"USAGES"] (.all k!"USAGE" .nil)), item := (.prim .litPlain) }]

/-- `readDescribable`, `parser/arxml_parser.py:7213-7219` -/
def readDescribable : List RSlot :=
  [/- 7214 -/ { field := k!"timestamp", path := .nil, item := (.attr k!"T" .raw) },
   /- 7214 -/ { field := k!"uuid", path := .nil, item := (.attr k!"UUID" .raw) },
   /- 7216 -/ { field := k!"desc", path := (.first [k!"DESC"] .nil), item := (.objs [(k!"DESC", k!"getMultiLanguageOverviewParagraph_MultiLanguageOverviewParagraph")]) },
   /- 7217 -/ { field := k!"category", path := (.first [k!"CATEGORY"] .nil), item := (.prim .lit) },
   /- 7218 -/ { field := k!"introduction", path := (.first [k!"INTRODUCTION"] .nil), item := (.objs [(k!"INTRODUCTION", k!"getDocumentationBlock_DocumentationBlock")]) },
   /- 7219 -/ { field := k!"adminData", path := (.first [k!"ADMIN-DATA"] .nil), item := (.objs [(k!"ADMIN-DATA", k!"getAdminData_AdminData")]) }]

/-- `readTracedFailure`, `parser/arxml_parser.py:1824-1826` -/
def readTracedFailure : List RSlot :=
  /- 1825 -/ readIdentifiable ++
  [/- 1826 -/ { field := k!"id", path := (.first [k!"ID"] .nil), item := (.prim .positive) }]

/-- `readRuntimeError`, `parser/arxml_parser.py:1831-1832`; also `readDevelopmentError` -/
def readRuntimeError : List RSlot :=
  /- 1832 -/ readTracedFailure

/-- `readDoIpLogicAddress`, `parser/arxml_parser.py:6529-6531` -/
def readDoIpLogicAddress : List RSlot :=
  /- 6530 -/ readIdentifiable ++
  [/- 6531 -/ { field := k!"address", path := (.first [k!"ADDRESS"] .nil), item := (.prim .integer) }]

/-- `readDoIpTpConfigDoIpLogicAddresses`, `parser/arxml_parser.py:6533-6540` (the `DoIpLogicAddress` it makes) -/
def readDoIpTpConfigDoIpLogicAddresses_DoIpLogicAddress : List RSlot :=
  [/- 6537 -/ { field := k!"short_name", path := (.first [k!"SHORT-NAME"] .nil), item := .name, req := .always }] ++
  /- 6538 -/ readDoIpLogicAddress

/-- `readDoIpTpConnection`, `parser/arxml_parser.py:6542-6546` -/
def readDoIpTpConnection : List RSlot :=
  /- 6543 -/ readTpConnection ++
  [/- 6544 -/ { field := k!"doIpSourceAddressRef", path := (.first [k!"DO-IP-SOURCE-ADDRESS-REF"] .nil), item := (.prim .ref) },
   /- 6545 -/ { field := k!"doIpTargetAddressRef", path := (.first [k!"DO-IP-TARGET-ADDRESS-REF"] .nil), item := (.prim .ref) },
   /- 6546 -/ { field := k!"tpSduRef", path := (.first [k!"TP-SDU-REF"] .nil), item := (.prim .ref) }]

/-- `readDoIpTpConfigTpConnections`, `parser/arxml_parser.py:6548-6556` (the `DoIpTpConnection` it makes) -/
def readDoIpTpConfigTpConnections_DoIpTpConnection : List RSlot :=
  /- 6553 -/ readDoIpTpConnection

/-- `readModification`, `parser/arxml_parser.py:861-863` -/
def readModification : List RSlot :=
  [/- 862 -/ { field := k!"change", path := (.first [k!"CHANGE"] .nil), item := (.objs [(k!"CHANGE", k!"getMultiLanguageOverviewParagraph_MultiLanguageOverviewParagraph")]) },
   /- 863 -/ { field := k!"reason", path := (.first [k!"REASON"] .nil), item := (.objs [(k!"REASON", k!"getMultiLanguageOverviewParagraph_MultiLanguageOverviewParagraph")]) }]

/-- `readDocRevisionModifications`, `parser/arxml_parser.py:865-873` (the `Modification` it makes) -/
def readDocRevisionModifications_Modification : List RSlot :=
  /- 870 -/ readModification

/-- `readDocumentationContext`, `parser/arxml_parser.py:4674-4679` (the `DocumentationContext` it makes) -/
def readDocumentationContext_DocumentationContext : List RSlot :=
  [/- 4675 -/ { field := k!"short_name", path := (.first [k!"SHORT-NAME"] .nil), item := .name, req := .always }] ++
  /- 4676 -/ readMultilanguageReferrable ++
  [/- 4677 -/ { field := k!"featureIRef", path := (.first [k!"FEATURE-IREF"] .nil), item := (.objs [(k!"FEATURE-IREF", k!"getAnyInstanceRef_AnyInstanceRef")]) },
   /- 4678 -/ { field := k!"identifiableRef", path := (.first [k!"IDENTIFIABLE-REF"] .nil), item := (.prim .ref) }]

/-- `readMultiplexedPartSegmentPositions`, `parser/arxml_parser.py:6403-6411` -/
def readMultiplexedPartSegmentPositions : List RSlot :=
  [/- 6409 -/ { field := k!"segmentPositions", path := (.all k!"SEGMENT-POSITIONS" (.all k!"SEGMENT-POSITION" .nil)), item := (.objs [(k!"SEGMENT-POSITION", k!"readMultiplexedPartSegmentPositions_SegmentPosition")]) },
   /- 6411 -/ { field := 0, path := (.all k!"SEGMENT-POSITIONS" (.all 0 .nil)), item := (.guard [k!"SEGMENT-POSITION"] .unsupported) }]

/-- `readMultiplexedPart`, `parser/arxml_parser.py:6413-6414` -/
def readMultiplexedPart : List RSlot :=
  /- 6414 -/ readMultiplexedPartSegmentPositions

/-- `readDynamicPartDynamicPartAlternatives`, `parser/arxml_parser.py:6421-6429` -/
def readDynamicPartDynamicPartAlternatives : List RSlot :=
  [/- 6427 -/ { field := k!"dynamicPartAlternatives", path := (.all k!"DYNAMIC-PART-ALTERNATIVES" (.all k!"DYNAMIC-PART-ALTERNATIVE" .nil)), item := (.objs [(k!"DYNAMIC-PART-ALTERNATIVE", k!"readDynamicPartDynamicPartAlternatives_DynamicPartAlternative")]) },
   /- 6429 -/ { field := 0, path := (.all k!"DYNAMIC-PART-ALTERNATIVES" (.all 0 .nil)), item := (.guard [k!"DYNAMIC-PART-ALTERNATIVE"] .unsupported) }]

/-- `readDynamicPart`, `parser/arxml_parser.py:6431-6433` -/
def readDynamicPart : List RSlot :=
  /- 6432 -/ readMultiplexedPart ++
  /- 6433 -/ readDynamicPartDynamicPartAlternatives

/-- `readDynamicPartAlternative`, `parser/arxml_parser.py:6416-6419` -/
def readDynamicPartAlternative : List RSlot :=
  [/- 6417 -/ { field := k!"iPduRef", path := (.first [k!"I-PDU-REF"] .nil), item := (.prim .ref) },
   /- 6418 -/ { field := k!"initialDynamicPart", path := (.first [k!"INITIAL-DYNAMIC-PART"] .nil), item := (.prim .boolean) },
   /- 6419 -/ { field := k!"selectorFieldCode", path := (.first [k!"SELECTOR-FIELD-CODE"] .nil), item := (.prim .integer) }]

/-- `readDynamicPartDynamicPartAlternatives`, `parser/arxml_parser.py:6421-6429` (the `DynamicPartAlternative` it makes) -/
def readDynamicPartDynamicPartAlternatives_DynamicPartAlternative : List RSlot :=
  /- 6426 -/ readDynamicPartAlternative

/-- `readEOCExecutableEntityRef`, `parser/arxml_parser.py:5716-5722` -/
def readEOCExecutableEntityRef : List RSlot :=
  [/- 5719 -/ { field := k!"ordered_elements", path := .nil, item := (.objs [(k!"EOC-EXECUTABLE-ENTITY-REF", k!"readEOCExecutableEntityRef_EOCExecutableEntityRef")]), elems := true, named := true }]

/-- `readEOCExecutableEntityRef`, `parser/arxml_parser.py:5716-5722` (the `EOCExecutableEntityRef` it makes) -/
def readEOCExecutableEntityRef_EOCExecutableEntityRef : List RSlot :=
  [/- 5719 -/ { field := k!"short_name", path := (.first [k!"SHORT-NAME"] .nil), item := .name, req := .always }] ++
  /- 5720 -/ readIdentifiable ++
  [/- 5722 -/ { field := k!"successor_refs", path := (.all k!"SUCCESSOR-REFS" (.all k!"SUCCESSOR-REF" .nil)), item := (.prim .ref) }]

/-- `readEcuInstanceCommControllers`, `parser/arxml_parser.py:8108-8125` (the `CanCommunicationController` it makes) -/
def readEcuInstanceCommControllers_CanCommunicationController : List RSlot :=
  [/- 8113 -/ { field := k!"short_name", path := (.first [k!"SHORT-NAME"] .nil), item := .name, req := .always }] ++
  /- 8114 -/ readCanCommunicationController

/-- `readEthernetCommunicationControllerCouplingPorts`, `parser/arxml_parser.py:8078-8085` -/
def readEthernetCommunicationControllerCouplingPorts : List RSlot :=
  [/- 8082 -/ { field := k!"couplingPorts", path := (.all k!"COUPLING-PORTS" (.all k!"COUPLING-PORT" .nil)), item := (.objs [(k!"COUPLING-PORT", k!"readEthernetCommunicationControllerCouplingPorts_CouplingPort")]), elems := true, named := true, fresh := true },
   /- 8085 -/ { field := 0, path := (.all k!"COUPLING-PORTS" (.all 0 .nil)), item := (.guard [k!"COUPLING-PORT"] .unsupported) }]

/-- `readEthernetCommunicationController`, `parser/arxml_parser.py:8087-8093` -/
def readEthernetCommunicationController : List RSlot :=
  /- 8089 -/ readIdentifiable ++
  /- 8092 -/ via (.first [k!"ETHERNET-COMMUNICATION-CONTROLLER-VARIANTS", k!"ETHERNET-COMMUNICATION-CONTROLLER-CONDITIONAL"] .nil) readCommunicationController ++
  /- 8093 -/ via (.first [k!"ETHERNET-COMMUNICATION-CONTROLLER-VARIANTS", k!"ETHERNET-COMMUNICATION-CONTROLLER-CONDITIONAL"] .nil) readEthernetCommunicationControllerCouplingPorts

/-- `readEcuInstanceCommControllers`, `parser/arxml_parser.py:8108-8125` (the `EthernetCommunicationController` it makes) -/
def readEcuInstanceCommControllers_EthernetCommunicationController : List RSlot :=
  [/- 8116 -/ { field := k!"short_name", path := (.first [k!"SHORT-NAME"] .nil), item := .name, req := .always }] ++
  /- 8117 -/ readEthernetCommunicationController

/-- `readFlexrayCommunicationController`, `parser/arxml_parser.py:7134-7183` -/
def readFlexrayCommunicationController : List RSlot :=
  /- 7136 -/ readIdentifiable ++
  /- 7139 -/ via (.need (.first [k!"FLEXRAY-COMMUNICATION-CONTROLLER-VARIANTS", k!"FLEXRAY-COMMUNICATION-CONTROLLER-CONDITIONAL"] .nil) .nil) readCommunicationController ++
  [/- 7140 -/ { field := k!"acceptedStartupRange", path := (.first [k!"FLEXRAY-COMMUNICATION-CONTROLLER-VARIANTS", k!"FLEXRAY-COMMUNICATION-CONTROLLER-CONDITIONAL"] (.first [k!"ACCEPTED-STARTUP-RANGE"] .nil)), item := (.prim .integer) },
   /- 7141 -/ { field := k!"allowHaltDueToClock", path := (.first [k!"FLEXRAY-COMMUNICATION-CONTROLLER-VARIANTS", k!"FLEXRAY-COMMUNICATION-CONTROLLER-CONDITIONAL"] (.first [k!"ALLOW-HALT-DUE-TO-CLOCK"] .nil)), item := (.prim .boolean) },
   /- 7142 -/ { field := k!"allowPassiveToActive", path := (.first [k!"FLEXRAY-COMMUNICATION-CONTROLLER-VARIANTS", k!"FLEXRAY-COMMUNICATION-CONTROLLER-CONDITIONAL"] (.first [k!"ALLOW-PASSIVE-TO-ACTIVE"] .nil)), item := (.prim .integer) },
   /- 7143 -/ { field := k!"clusterDriftDamping", path := (.first [k!"FLEXRAY-COMMUNICATION-CONTROLLER-VARIANTS", k!"FLEXRAY-COMMUNICATION-CONTROLLER-CONDITIONAL"] (.first [k!"CLUSTER-DRIFT-DAMPING"] .nil)), item := (.prim .integer) },
   /- 7144 -/ { field := k!"decodingCorrection", path := (.first [k!"FLEXRAY-COMMUNICATION-CONTROLLER-VARIANTS", k!"FLEXRAY-COMMUNICATION-CONTROLLER-CONDITIONAL"] (.first [k!"DECODING-CORRECTION"] .nil)), item := (.prim .integer) },
   /- 7145 -/ { field := k!"delayCompensationA", path := (.first [k!"FLEXRAY-COMMUNICATION-CONTROLLER-VARIANTS", k!"FLEXRAY-COMMUNICATION-CONTROLLER-CONDITIONAL"] (.first [k!"DELAY-COMPENSATION-A"] .nil)), item := (.prim .integer) },
   /- 7146 -/ { field := k!"delayCompensationB", path := (.first [k!"FLEXRAY-COMMUNICATION-CONTROLLER-VARIANTS", k!"FLEXRAY-COMMUNICATION-CONTROLLER-CONDITIONAL"] (.first [k!"DELAY-COMPENSATION-B"] .nil)), item := (.prim .integer) },
   /- 7147 -/ { field := k!"keySlotOnlyEnabled", path := (.first [k!"FLEXRAY-COMMUNICATION-CONTROLLER-VARIANTS", k!"FLEXRAY-COMMUNICATION-CONTROLLER-CONDITIONAL"] (.first [k!"KEY-SLOT-ONLY-ENABLED"] .nil)), item := (.prim .boolean) },
   /- 7148 -/ { field := k!"keySlotUsedForStartUp", path := (.first [k!"FLEXRAY-COMMUNICATION-CONTROLLER-VARIANTS", k!"FLEXRAY-COMMUNICATION-CONTROLLER-CONDITIONAL"] (.first [k!"KEY-SLOT-USED-FOR-START-UP"] .nil)), item := (.prim .boolean) },
   /- 7149 -/ { field := k!"keySlotUsedForSync", path := (.first [k!"FLEXRAY-COMMUNICATION-CONTROLLER-VARIANTS", k!"FLEXRAY-COMMUNICATION-CONTROLLER-CONDITIONAL"] (.first [k!"KEY-SLOT-USED-FOR-SYNC"] .nil)), item := (.prim .boolean) },
   /- 7150 -/ { field := k!"latestTX", path := (.first [k!"FLEXRAY-COMMUNICATION-CONTROLLER-VARIANTS", k!"FLEXRAY-COMMUNICATION-CONTROLLER-CONDITIONAL"] (.first [k!"LATEST-TX"] .nil)), item := (.prim .integer) },
   /- 7151 -/ { field := k!"listenTimeout", path := (.first [k!"FLEXRAY-COMMUNICATION-CONTROLLER-VARIANTS", k!"FLEXRAY-COMMUNICATION-CONTROLLER-CONDITIONAL"] (.first [k!"LISTEN-TIMEOUT"] .nil)), item := (.prim .integer) },
   /- 7152 -/ { field := k!"macroInitialOffsetA", path := (.first [k!"FLEXRAY-COMMUNICATION-CONTROLLER-VARIANTS", k!"FLEXRAY-COMMUNICATION-CONTROLLER-CONDITIONAL"] (.first [k!"MACRO-INITIAL-OFFSET-A"] .nil)), item := (.prim .integer) },
   /- 7153 -/ { field := k!"macroInitialOffsetB", path := (.first [k!"FLEXRAY-COMMUNICATION-CONTROLLER-VARIANTS", k!"FLEXRAY-COMMUNICATION-CONTROLLER-CONDITIONAL"] (.first [k!"MACRO-INITIAL-OFFSET-B"] .nil)), item := (.prim .integer) },
   /- 7154 -/ { field := k!"maximumDynamicPayloadLength", path := (.first [k!"FLEXRAY-COMMUNICATION-CONTROLLER-VARIANTS", k!"FLEXRAY-COMMUNICATION-CONTROLLER-CONDITIONAL"] (.first [k!"MAXIMUM-DYNAMIC-PAYLOAD-LENGTH"] .nil)), item := (.prim .integer) },
   /- 7155 -/ { field := k!"microInitialOffsetA", path := (.first [k!"FLEXRAY-COMMUNICATION-CONTROLLER-VARIANTS", k!"FLEXRAY-COMMUNICATION-CONTROLLER-CONDITIONAL"] (.first [k!"MICRO-INITIAL-OFFSET-A"] .nil)), item := (.prim .integer) },
   /- 7156 -/ { field := k!"microInitialOffsetB", path := (.first [k!"FLEXRAY-COMMUNICATION-CONTROLLER-VARIANTS", k!"FLEXRAY-COMMUNICATION-CONTROLLER-CONDITIONAL"] (.first [k!"MICRO-INITIAL-OFFSET-B"] .nil)), item := (.prim .integer) },
   /- 7157 -/ { field := k!"microPerCycle", path := (.first [k!"FLEXRAY-COMMUNICATION-CONTROLLER-VARIANTS", k!"FLEXRAY-COMMUNICATION-CONTROLLER-CONDITIONAL"] (.first [k!"MICRO-PER-CYCLE"] .nil)), item := (.prim .integer) },
   /- 7158 -/ { field := k!"microtickDuration", path := (.first [k!"FLEXRAY-COMMUNICATION-CONTROLLER-VARIANTS", k!"FLEXRAY-COMMUNICATION-CONTROLLER-CONDITIONAL"] (.first [k!"MICROTICK-DURATION"] .nil)), item := (.prim .time) },
   /- 7159 -/ { field := k!"offsetCorrectionOut", path := (.first [k!"FLEXRAY-COMMUNICATION-CONTROLLER-VARIANTS", k!"FLEXRAY-COMMUNICATION-CONTROLLER-CONDITIONAL"] (.first [k!"OFFSET-CORRECTION-OUT"] .nil)), item := (.prim .integer) },
   /- 7160 -/ { field := k!"rateCorrectionOut", path := (.first [k!"FLEXRAY-COMMUNICATION-CONTROLLER-VARIANTS", k!"FLEXRAY-COMMUNICATION-CONTROLLER-CONDITIONAL"] (.first [k!"RATE-CORRECTION-OUT"] .nil)), item := (.prim .integer) },
   /- 7161 -/ { field := k!"samplesPerMicrotick", path := (.first [k!"FLEXRAY-COMMUNICATION-CONTROLLER-VARIANTS", k!"FLEXRAY-COMMUNICATION-CONTROLLER-CONDITIONAL"] (.first [k!"SAMPLES-PER-MICROTICK"] .nil)), item := (.prim .integer) },
   /- 7162 -/ { field := k!"externOffsetCorrection", path := (.first [k!"FLEXRAY-COMMUNICATION-CONTROLLER-VARIANTS", k!"FLEXRAY-COMMUNICATION-CONTROLLER-CONDITIONAL"] (.first [k!"EXTERN-OFFSET-CORRECTION"] .nil)), item := (.prim .integer) },
   /- 7163 -/ { field := k!"externRateCorrection", path := (.first [k!"FLEXRAY-COMMUNICATION-CONTROLLER-VARIANTS", k!"FLEXRAY-COMMUNICATION-CONTROLLER-CONDITIONAL"] (.first [k!"EXTERN-RATE-CORRECTION"] .nil)), item := (.prim .integer) },
   /- 7164 -/ { field := k!"externalSync", path := (.first [k!"FLEXRAY-COMMUNICATION-CONTROLLER-VARIANTS", k!"FLEXRAY-COMMUNICATION-CONTROLLER-CONDITIONAL"] (.first [k!"EXTERNAL-SYNC"] .nil)), item := (.prim .boolean) },
   /- 7165 -/ { field := k!"fallBackInternal", path := (.first [k!"FLEXRAY-COMMUNICATION-CONTROLLER-VARIANTS", k!"FLEXRAY-COMMUNICATION-CONTROLLER-CONDITIONAL"] (.first [k!"FALL-BACK-INTERNAL"] .nil)), item := (.prim .boolean) },
   /- 7167 -/ { field := k!"flexrayFifos", path := (.first [k!"FLEXRAY-COMMUNICATION-CONTROLLER-VARIANTS", k!"FLEXRAY-COMMUNICATION-CONTROLLER-CONDITIONAL"] (.all k!"FLEXRAY-FIFOS" (.all k!"FLEXRAY-FIFO-CONFIGURATION" .nil))), item := (.objs [(k!"FLEXRAY-FIFO-CONFIGURATION", k!"readFlexrayCommunicationController_FlexrayFifoConfiguration")]) },
   /- 7179 -/ { field := k!"keySlotID", path := (.first [k!"FLEXRAY-COMMUNICATION-CONTROLLER-VARIANTS", k!"FLEXRAY-COMMUNICATION-CONTROLLER-CONDITIONAL"] (.first [k!"KEY-SLOT-ID"] .nil)), item := (.prim .integer) },
   /- 7180 -/ { field := k!"nmVectorEarlyUpdate", path := (.first [k!"FLEXRAY-COMMUNICATION-CONTROLLER-VARIANTS", k!"FLEXRAY-COMMUNICATION-CONTROLLER-CONDITIONAL"] (.first [k!"NM-VECTOR-EARLY-UPDATE"] .nil)), item := (.prim .boolean) },
   /- 7181 -/ { field := k!"secondKeySlotId", path := (.first [k!"FLEXRAY-COMMUNICATION-CONTROLLER-VARIANTS", k!"FLEXRAY-COMMUNICATION-CONTROLLER-CONDITIONAL"] (.first [k!"SECOND-KEY-SLOT-ID"] .nil)), item := (.prim .integer) },
   /- 7182 -/ { field := k!"twoKeySlotMode", path := (.first [k!"FLEXRAY-COMMUNICATION-CONTROLLER-VARIANTS", k!"FLEXRAY-COMMUNICATION-CONTROLLER-CONDITIONAL"] (.first [k!"TWO-KEY-SLOT-MODE"] .nil)), item := (.prim .boolean) },
   /- 7183 -/ { field := k!"wakeUpPattern", path := (.first [k!"FLEXRAY-COMMUNICATION-CONTROLLER-VARIANTS", k!"FLEXRAY-COMMUNICATION-CONTROLLER-CONDITIONAL"] (.first [k!"WAKE-UP-PATTERN"] .nil)), item := (.prim .integer) }]

/-- `readEcuInstanceCommControllers`, `parser/arxml_parser.py:8108-8125` (the `FlexrayCommunicationController` it makes) -/
def readEcuInstanceCommControllers_FlexrayCommunicationController : List RSlot :=
  [/- 8122 -/ { field := k!"short_name", path := (.first [k!"SHORT-NAME"] .nil), item := .name, req := .always }] ++
  /- 8123 -/ readFlexrayCommunicationController

/-- `readLinCommunicationController`, `parser/arxml_parser.py:8095-8097` -/
def readLinCommunicationController : List RSlot :=
  /- 8096 -/ readCommunicationController ++
  [/- 8097 -/ { field := k!"protocolVersion", path := (.first [k!"PROTOCOL-VERSION"] .nil), item := (.prim .lit) }]

/-- `readLinMaster`, `parser/arxml_parser.py:8099-8106` -/
def readLinMaster : List RSlot :=
  /- 8101 -/ readIdentifiable ++
  /- 8104 -/ via (.first [k!"LIN-MASTER-VARIANTS", k!"LIN-MASTER-CONDITIONAL"] .nil) readLinCommunicationController ++
  [/- 8105 -/ { field := k!"timeBase", path := (.first [k!"LIN-MASTER-VARIANTS", k!"LIN-MASTER-CONDITIONAL"] (.first [k!"TIME-BASE"] .nil)), item := (.prim .time) },
   /- 8106 -/ { field := k!"timeBaseJitter", path := (.first [k!"LIN-MASTER-VARIANTS", k!"LIN-MASTER-CONDITIONAL"] (.first [k!"TIME-BASE-JITTER"] .nil)), item := (.prim .time) }]

end Verif.Gen.R
