import Verif.Gen.Write2
-- generated by tools/gen_codec.py; do not edit
namespace Verif.Gen.W
open Verif Verif.Model

/-- `writeCommunicationCluster`, `writer/arxml_writer.py:6810-6814` -/
def writeCommunicationCluster_CommunicationCluster : WB :=
  /- 6811 -/ .prim k!"BAUDRATE" .numerical k!"baudrate" <|
  /- 6812 -/ writeCommunicationClusterPhysicalChannels_CommunicationCluster.app <|
  /- 6813 -/ .prim k!"PROTOCOL-NAME" .lit k!"protocolName" <|
  /- 6814 -/ .prim k!"PROTOCOL-VERSION" .lit k!"protocolVersion" <|
  .nil

/-- `writeCanCluster`, `writer/arxml_writer.py:6838-6847` -/
def writeCanCluster_CanCluster : WB :=
  /- 6841 -/ .wrap .always k!"CAN-CLUSTER" (
    /- 6842 -/ writeIdentifiable_ARPackage.app <|
    /- 6844 -/ .wrap .always k!"CAN-CLUSTER-VARIANTS" (
      /- 6845 -/ .wrap .always k!"CAN-CLUSTER-CONDITIONAL" (
        /- 6846 -/ writeCommunicationCluster_CommunicationCluster.app <|
        /- 6847 -/ writeAbstractCanCluster_AbstractCanCluster.app <|
        .nil) <|
      .nil) <|
    .nil) <|
  .nil

/-- `writeCommunicationConnectorEcuCommPortInstances`, `writer/arxml_writer.py:7500-7513` -/
def writeCommunicationConnectorEcuCommPortInstances_CommunicationConnector : WB :=
  /- 7504 -/ .wrap (.any [(k!"elements", [k!"CommConnectorPort"])]) k!"ECU-COMM-PORT-INSTANCES" (
    /- 7507 -/ .each k!"elements" [k!"CommConnectorPort"] .sorted [⟨[(false, [k!"FramePort"])], [], k!"writeFramePort_FramePort"⟩,
      ⟨[(false, [k!"IPduPort"])], [k!"FramePort"], k!"writeIPduPort_IPduPort"⟩,
      ⟨[(false, [k!"ISignalPort"])], [k!"FramePort", k!"IPduPort"], k!"writeISignalPort_ISignalPort"⟩] .unsupported <|
    .nil) <|
  .nil

/-- `writeCommunicationConnector`, `writer/arxml_writer.py:7741-7745` -/
def writeCommunicationConnector_CommunicationConnector : WB :=
  /- 7742 -/ writeIdentifiable_ARPackage.app <|
  /- 7743 -/ .prim k!"COMM-CONTROLLER-REF" .ref k!"commControllerRef" <|
  /- 7744 -/ writeCommunicationConnectorEcuCommPortInstances_CommunicationConnector.app <|
  /- 7745 -/ .prim k!"PNC-GATEWAY-TYPE" .lit k!"pncGatewayType" <|
  .nil

/-- `writeCanCommunicationConnector`, `writer/arxml_writer.py:7747-7749`; also `writeFlexrayCommunicationConnector`, `writeLinCommunicationConnector` -/
def writeCanCommunicationConnector_CanCommunicationConnector : WB :=
  /- 7749 -/ writeCommunicationConnector_CommunicationConnector.app <|
  .nil

/-- `writeCanCommunicationController`, `writer/arxml_writer.py:7625-7631` -/
def writeCanCommunicationController_CanCommunicationController : WB :=
  /- 7626 -/ .wrap .always k!"CAN-COMMUNICATION-CONTROLLER" (
    /- 7628 -/ writeIdentifiable_ARPackage.app <|
    /- 7629 -/ .wrap .always k!"CAN-COMMUNICATION-CONTROLLER-VARIANTS" (
      /- 7630 -/ .wrap .always k!"CAN-COMMUNICATION-CONTROLLER-CONDITIONAL" (
        /- 7631 -/ writeAbstractCanCommunicationController_AbstractCanCommunicationController.app <|
        .nil) <|
      .nil) <|
    .nil) <|
  .nil

/-- `writeCanControllerConfigurationRequirements`, `writer/arxml_writer.py:7601-7610` -/
def writeCanControllerConfigurationRequirements_CanControllerConfigurationRequirements : WB :=
  /- 7603 -/ .wrap .always k!"CAN-CONTROLLER-CONFIGURATION-REQUIREMENTS" (
    /- 7604 -/ writeAbstractCanCommunicationControllerAttributes_AbstractCanCommunicationControllerAttributes.app <|
    /- 7605 -/ .prim k!"MAX-NUMBER-OF-TIME-QUANTA-PER-BIT" .numerical k!"maxNumberOfTimeQuantaPerBit" <|
    /- 7606 -/ .prim k!"MAX-SAMPLE-POINT" .lit k!"maxSamplePoint" <|
    /- 7607 -/ .prim k!"MAX-SYNC-JUMP-WIDTH" .lit k!"maxSyncJumpWidth" <|
    /- 7608 -/ .prim k!"MIN-NUMBER-OF-TIME-QUANTA-PER-BIT" .numerical k!"minNumberOfTimeQuantaPerBit" <|
    /- 7609 -/ .prim k!"MIN-SAMPLE-POINT" .lit k!"minSamplePoint" <|
    /- 7610 -/ .prim k!"MIN-SYNC-JUMP-WIDTH" .lit k!"minSyncJumpWidth" <|
    .nil) <|
  .nil

/-- `writeFrameTriggering`, `writer/arxml_writer.py:6222-6236` -/
def writeFrameTriggering_FrameTriggering : WB :=
  /- 6223 -/ writeIdentifiable_ARPackage.app <|
  /- 6226 -/ .wrap (.any [(k!"framePortRefs", [])]) k!"FRAME-PORT-REFS" (
    /- 6228 -/ .prim k!"FRAME-PORT-REF" .ref k!"framePortRefs" <|
    .nil) <|
  /- 6229 -/ .prim k!"FRAME-REF" .ref k!"frameRef" <|
  /- 6233 -/ .wrap (.any [(k!"pduTriggeringRefs", [])]) k!"PDU-TRIGGERINGS" (
    /- 6236 -/ .oprim k!"PDU-TRIGGERING-REF-CONDITIONAL" k!"PDU-TRIGGERING-REF" .ref k!"pduTriggeringRefs" <|
    .nil) <|
  .nil

/-- `writeCanFrameTriggering`, `writer/arxml_writer.py:6238-6247` -/
def writeCanFrameTriggering_CanFrameTriggering : WB :=
  /- 6240 -/ .wrap .always k!"CAN-FRAME-TRIGGERING" (
    /- 6241 -/ writeFrameTriggering_FrameTriggering.app <|
    /- 6242 -/ .prim k!"CAN-ADDRESSING-MODE" .lit k!"canAddressingMode" <|
    /- 6243 -/ .prim k!"CAN-FD-FRAME-SUPPORT" .lit k!"canFdFrameSupport" <|
    /- 6244 -/ .prim k!"CAN-FRAME-RX-BEHAVIOR" .lit k!"canFrameRxBehavior" <|
    /- 6245 -/ .prim k!"CAN-FRAME-TX-BEHAVIOR" .lit k!"canFrameTxBehavior" <|
    /- 6246 -/ .prim k!"IDENTIFIER" .numerical k!"identifier" <|
    /- 6247 -/ .each k!"rxIdentifierRange" [] .plain [⟨[], [], k!"setChildElementRxIdentifierRange_RX_IDENTIFIER_RANGE_RxIdentifierRange"⟩] .skip <|
    .nil) <|
  .nil

/-- `writePduToFrameMappings`, `writer/arxml_writer.py:5745-5754` -/
def writePduToFrameMappings_Frame : WB :=
  /- 5748 -/ .wrap (.any [(k!"elements", [k!"PduToFrameMapping"])]) k!"PDU-TO-FRAME-MAPPINGS" (
    /- 5750 -/ .each k!"elements" [k!"PduToFrameMapping"] .sorted [⟨[], [], k!"writePduToFrameMappings_Frame_L5750"⟩] .skip <|
    .nil) <|
  .nil

/-- `writeFrame`, `writer/arxml_writer.py:5756-5759` -/
def writeFrame_Frame : WB :=
  /- 5757 -/ writeIdentifiable_ARPackage.app <|
  /- 5758 -/ .prim k!"FRAME-LENGTH" .numerical k!"frameLength" <|
  /- 5759 -/ writePduToFrameMappings_Frame.app <|
  .nil

/-- `writeCanFrame`, `writer/arxml_writer.py:7475-7478` -/
def writeCanFrame_CanFrame : WB :=
  /- 7477 -/ .wrap .always k!"CAN-FRAME" (
    /- 7478 -/ writeFrame_Frame.app <|
    .nil) <|
  .nil

/-- `writeCanNmClusterCoupling`, `writer/arxml_writer.py:5823-5831` -/
def writeCanNmClusterCoupling_CanNmClusterCoupling : WB :=
  /- 5824 -/ .wrap .always k!"CAN-NM-CLUSTER-COUPLING" (
    /- 5827 -/ .wrap (.any [(k!"coupledClusterRefs", [])]) k!"COUPLED-CLUSTER-REFS" (
      /- 5829 -/ .prim k!"COUPLED-CLUSTER-REF" .ref k!"coupledClusterRefs" <|
      .nil) <|
    /- 5830 -/ .prim k!"NM-BUSLOAD-REDUCTION-ENABLED" .lit k!"nmBusloadReductionEnabled" <|
    /- 5831 -/ .prim k!"NM-IMMEDIATE-RESTART-ENABLED" .lit k!"nmImmediateRestartEnabled" <|
    .nil) <|
  .nil

/-- `writeNmClusterNmNodes`, `writer/arxml_writer.py:5809-5821` -/
def writeNmClusterNmNodes_NmCluster : WB :=
  /- 5812 -/ .wrap (.any [(k!"elements", [k!"NmNode"])]) k!"NM-NODES" (
    /- 5815 -/ .each k!"elements" [k!"NmNode"] .sorted [⟨[(false, [k!"CanNmNode"])], [], k!"writeCanNmNode_CanNmNode"⟩,
      ⟨[(false, [k!"UdpNmNode"])], [k!"CanNmNode"], k!"writeUdpNmNode_UdpNmNode"⟩,
      ⟨[(false, [k!"J1939NmNode"])], [k!"CanNmNode", k!"UdpNmNode"], k!"writeJ1939NmNode_J1939NmNode"⟩] .unsupported <|
    .nil) <|
  .nil

/-- `writeNmCluster`, `writer/arxml_writer.py:5855-5862` -/
def writeNmCluster_NmCluster : WB :=
  /- 5857 -/ writeIdentifiable_ARPackage.app <|
  /- 5858 -/ .prim k!"COMMUNICATION-CLUSTER-REF" .ref k!"communicationClusterRef" <|
  /- 5859 -/ .prim k!"NM-CHANNEL-ID" .numerical k!"nmChannelId" <|
  /- 5860 -/ .prim k!"NM-CHANNEL-SLEEP-MASTER" .lit k!"nmChannelSleepMaster" <|
  /- 5861 -/ writeNmClusterNmNodes_NmCluster.app <|
  /- 5862 -/ .prim k!"NM-SYNCHRONIZING-NETWORK" .lit k!"_nmSynchronizingNetwork" <|
  .nil

/-- `writeCanNmCluster`, `writer/arxml_writer.py:5864-5882` -/
def writeCanNmCluster_CanNmCluster : WB :=
  /- 5866 -/ .wrap .always k!"CAN-NM-CLUSTER" (
    /- 5867 -/ writeNmCluster_NmCluster.app <|
    /- 5869 -/ .prim k!"NM-BUSLOAD-REDUCTION-ACTIVE" .lit k!"nmBusloadReductionActive" <|
    /- 5870 -/ .prim k!"NM-CAR-WAKE-UP-RX-ENABLED" .lit k!"nmCarWakeUpRxEnabled" <|
    /- 5871 -/ .prim k!"NM-CBV-POSITION" .numerical k!"nmCbvPosition" <|
    /- 5872 -/ .prim k!"NM-CHANNEL-ACTIVE" .lit k!"nmChannelActive" <|
    /- 5873 -/ .prim k!"NM-IMMEDIATE-NM-CYCLE-TIME" .lit k!"nmImmediateNmCycleTime" <|
    /- 5874 -/ .prim k!"NM-IMMEDIATE-NM-TRANSMISSIONS" .numerical k!"nmImmediateNmTransmissions" <|
    /- 5875 -/ .prim k!"NM-MESSAGE-TIMEOUT-TIME" .lit k!"nmMessageTimeoutTime" <|
    /- 5876 -/ .prim k!"NM-MSG-CYCLE-TIME" .lit k!"nmMsgCycleTime" <|
    /- 5877 -/ .prim k!"NM-NETWORK-TIMEOUT" .lit k!"nmNetworkTimeout" <|
    /- 5878 -/ .prim k!"NM-NID-POSITION" .numerical k!"nmNidPosition" <|
    /- 5879 -/ .prim k!"NM-REMOTE-SLEEP-INDICATION-TIME" .lit k!"nmRemoteSleepIndicationTime" <|
    /- 5880 -/ .prim k!"NM-REPEAT-MESSAGE-TIME" .lit k!"nmRepeatMessageTime" <|
    /- 5881 -/ .prim k!"NM-USER-DATA-LENGTH" .numerical k!"nmUserDataLength" <|
    /- 5882 -/ .prim k!"NM-WAIT-BUS-SLEEP-TIME" .lit k!"nmWaitBusSleepTime" <|
    .nil) <|
  .nil

/-- `writeNmNode`, `writer/arxml_writer.py:5766-5785` -/
def writeNmNode_NmNode : WB :=
  /- 5767 -/ writeIdentifiable_ARPackage.app <|
  /- 5768 -/ .prim k!"CONTROLLER-REF" .ref k!"controllerRef" <|
  /- 5769 -/ .prim k!"NM-COORD-CLUSTER" .numerical k!"nmCoordCluster" <|
  /- 5770 -/ .prim k!"NM-COORDINATOR-ROLE" .lit k!"nmCoordinatorRole" <|
  /- 5771 -/ .prim k!"NM-IF-ECU-REF" .ref k!"nmIfEcuRef" <|
  /- 5772 -/ .prim k!"NM-NODE-ID" .numerical k!"nmNodeId" <|
  /- 5773 -/ .prim k!"NM-PASSIVE-MODE-ENABLED" .lit k!"nmPassiveModeEnabled" <|
  /- 5777 -/ .wrap (.any [(k!"rxNmPduRefs", [])]) k!"RX-NM-PDU-REFS" (
    /- 5779 -/ .prim k!"RX-NM-PDU-REF" .ref k!"rxNmPduRefs" <|
    .nil) <|
  /- 5783 -/ .wrap (.any [(k!"txNmPduRefs", [])]) k!"TX-NM-PDU-REFS" (
    /- 5785 -/ .prim k!"TX-NM-PDU-REF" .ref k!"txNmPduRefs" <|
    .nil) <|
  .nil

/-- `writeCanNmNode`, `writer/arxml_writer.py:5787-5794` -/
def writeCanNmNode_CanNmNode : WB :=
  /- 5789 -/ .wrap .always k!"CAN-NM-NODE" (
    /- 5790 -/ writeNmNode_NmNode.app <|
    /- 5791 -/ .prim k!"NM-CAR-WAKE-UP-RX-ENABLED" .lit k!"nmCarWakeUpRxEnabled" <|
    /- 5792 -/ .prim k!"NM-MSG-CYCLE-OFFSET" .lit k!"nmMsgCycleOffset" <|
    /- 5793 -/ .prim k!"NM-MSG-REDUCED-TIME" .lit k!"nmMsgReducedTime" <|
    /- 5794 -/ .each k!"nmRangeConfig" [] .plain [⟨[], [], k!"setChildElementRxIdentifierRange_NM_RANGE_CONFIG_RxIdentifierRange"⟩] .skip <|
    .nil) <|
  .nil

/-- `writePhysicalChannelCommConnectorRefs`, `writer/arxml_writer.py:6331-6337` -/
def writePhysicalChannelCommConnectorRefs_PhysicalChannel : WB :=
  /- 6334 -/ .wrap (.any [(k!"commConnectorRefs", [])]) k!"COMM-CONNECTORS" (
    /- 6337 -/ .oprim k!"COMMUNICATION-CONNECTOR-REF-CONDITIONAL" k!"COMMUNICATION-CONNECTOR-REF" .ref k!"commConnectorRefs" <|
    .nil) <|
  .nil

/-- `writePhysicalChannelFrameTriggerings`, `writer/arxml_writer.py:6339-6351` -/
def writePhysicalChannelFrameTriggerings_PhysicalChannel : WB :=
  /- 6342 -/ .wrap (.any [(k!"elements", [k!"FrameTriggering"])]) k!"FRAME-TRIGGERINGS" (
    /- 6345 -/ .each k!"elements" [k!"FrameTriggering"] .sorted [⟨[(false, [k!"CanFrameTriggering"])], [], k!"writeCanFrameTriggering_CanFrameTriggering"⟩,
      ⟨[(false, [k!"LinFrameTriggering"])], [k!"CanFrameTriggering"], k!"writeLinFrameTriggering_LinFrameTriggering"⟩,
      ⟨[(false, [k!"FlexrayFrameTriggering"])], [k!"CanFrameTriggering", k!"LinFrameTriggering"], k!"writeFlexrayFrameTriggering_FlexrayFrameTriggering"⟩] .unsupported <|
    .nil) <|
  .nil

/-- `writePhysicalChannelISignalTriggerings`, `writer/arxml_writer.py:6353-6361` -/
def writePhysicalChannelISignalTriggerings_PhysicalChannel : WB :=
  /- 6356 -/ .wrap (.any [(k!"elements", [k!"ISignalTriggering"])]) k!"I-SIGNAL-TRIGGERINGS" (
    /- 6359 -/ .each k!"elements" [k!"ISignalTriggering"] .sorted [⟨[(false, [k!"ISignalTriggering"])], [], k!"writeISignalTriggering_ISignalTriggering"⟩] .unsupported <|
    .nil) <|
  .nil

/-- `writePhysicalChannelPduTriggerings`, `writer/arxml_writer.py:6363-6371` -/
def writePhysicalChannelPduTriggerings_PhysicalChannel : WB :=
  /- 6366 -/ .wrap (.any [(k!"elements", [k!"PduTriggering"])]) k!"PDU-TRIGGERINGS" (
    /- 6369 -/ .each k!"elements" [k!"PduTriggering"] .sorted [⟨[(false, [k!"PduTriggering"])], [], k!"writePduTriggering_PduTriggering"⟩] .unsupported <|
    .nil) <|
  .nil

/-- `writePhysicalChannel`, `writer/arxml_writer.py:6373-6379` -/
def writePhysicalChannel_PhysicalChannel : WB :=
  /- 6374 -/ writeIdentifiable_ARPackage.app <|
  /- 6376 -/ writePhysicalChannelCommConnectorRefs_PhysicalChannel.app <|
  /- 6377 -/ writePhysicalChannelFrameTriggerings_PhysicalChannel.app <|
  /- 6378 -/ writePhysicalChannelISignalTriggerings_PhysicalChannel.app <|
  /- 6379 -/ writePhysicalChannelPduTriggerings_PhysicalChannel.app <|
  .nil

/-- `writeCanPhysicalChannel`, `writer/arxml_writer.py:6381-6384` -/
def writeCanPhysicalChannel_CanPhysicalChannel : WB :=
  /- 6383 -/ .wrap .always k!"CAN-PHYSICAL-CHANNEL" (
    /- 6384 -/ writePhysicalChannel_PhysicalChannel.app <|
    .nil) <|
  .nil

/-- `writeCanTpAddress`, `writer/arxml_writer.py:6029-6034` -/
def writeCanTpAddress_CanTpAddress : WB :=
  /- 6031 -/ .wrap .always k!"CAN-TP-ADDRESS" (
    /- 6032 -/ writeIdentifiable_ARPackage.app <|
    /- 6033 -/ .prim k!"TP-ADDRESS" .numerical k!"tpAddress" <|
    /- 6034 -/ .prim k!"TP-ADDRESS-EXTENSION-VALUE" .numerical k!"tpAddressExtensionValue" <|
    .nil) <|
  .nil

/-- `writeCanTpChannel`, `writer/arxml_writer.py:6046-6051` -/
def writeCanTpChannel_CanTpChannel : WB :=
  /- 6048 -/ .wrap .always k!"CAN-TP-CHANNEL" (
    /- 6049 -/ writeIdentifiable_ARPackage.app <|
    /- 6050 -/ .prim k!"CHANNEL-ID" .numerical k!"channelId" <|
    /- 6051 -/ .prim k!"CHANNEL-MODE" .lit k!"channelMode" <|
    .nil) <|
  .nil

/-- `writeCanTpConfigTpAddresses`, `writer/arxml_writer.py:6036-6044` -/
def writeCanTpConfigTpAddresses_CanTpConfig : WB :=
  /- 6039 -/ .wrap (.any [(k!"tpAddresses", [])]) k!"TP-ADDRESSS" (
    /- 6042 -/ .each k!"tpAddresses" [] .plain [⟨[(false, [k!"CanTpAddress"])], [], k!"writeCanTpAddress_CanTpAddress"⟩] .unsupported <|
    .nil) <|
  .nil

/-- `writeCanTpConfigTpChannels`, `writer/arxml_writer.py:6053-6061` -/
def writeCanTpConfigTpChannels_CanTpConfig : WB :=
  /- 6056 -/ .wrap (.any [(k!"tpChannels", [])]) k!"TP-CHANNELS" (
    /- 6059 -/ .each k!"tpChannels" [] .plain [⟨[(false, [k!"CanTpChannel"])], [], k!"writeCanTpChannel_CanTpChannel"⟩] .unsupported <|
    .nil) <|
  .nil

/-- `writeCanTpConfigTpConnections`, `writer/arxml_writer.py:6098-6106` -/
def writeCanTpConfigTpConnections_CanTpConfig : WB :=
  /- 6101 -/ .wrap (.any [(k!"tpConnections", [])]) k!"TP-CONNECTIONS" (
    /- 6104 -/ .each k!"tpConnections" [] .plain [⟨[(false, [k!"CanTpConnection"])], [], k!"writeCanTpConnection_CanTpConnection"⟩] .unsupported <|
    .nil) <|
  .nil

/-- `writeCanTpConfigTpEcus`, `writer/arxml_writer.py:6114-6122` -/
def writeCanTpConfigTpEcus_CanTpConfig : WB :=
  /- 6117 -/ .wrap (.any [(k!"tpEcus", [])]) k!"TP-ECUS" (
    /- 6120 -/ .each k!"tpEcus" [] .plain [⟨[(false, [k!"CanTpEcu"])], [], k!"writeCanTpEcu_CanTpEcu"⟩] .unsupported <|
    .nil) <|
  .nil

/-- `writeCanTpConfigTpNodes`, `writer/arxml_writer.py:6135-6143` -/
def writeCanTpConfigTpNodes_CanTpConfig : WB :=
  /- 6138 -/ .wrap (.any [(k!"tpNodes", [])]) k!"TP-NODES" (
    /- 6141 -/ .each k!"tpNodes" [] .plain [⟨[(false, [k!"CanTpNode"])], [], k!"writeCanTpNode_CanTpNode"⟩] .unsupported <|
    .nil) <|
  .nil

/-- `writeTpConfig`, `writer/arxml_writer.py:6025-6027` -/
def writeTpConfig_TpConfig : WB :=
  /- 6026 -/ writeIdentifiable_ARPackage.app <|
  /- 6027 -/ .prim k!"COMMUNICATION-CLUSTER-REF" .ref k!"communicationClusterRef" <|
  .nil

/-- `writeCanTpConfig`, `writer/arxml_writer.py:6145-6153` -/
def writeCanTpConfig_CanTpConfig : WB :=
  /- 6147 -/ .wrap .always k!"CAN-TP-CONFIG" (
    /- 6148 -/ writeTpConfig_TpConfig.app <|
    /- 6149 -/ writeCanTpConfigTpAddresses_CanTpConfig.app <|
    /- 6150 -/ writeCanTpConfigTpChannels_CanTpConfig.app <|
    /- 6151 -/ writeCanTpConfigTpConnections_CanTpConfig.app <|
    /- 6152 -/ writeCanTpConfigTpEcus_CanTpConfig.app <|
    /- 6153 -/ writeCanTpConfigTpNodes_CanTpConfig.app <|
    .nil) <|
  .nil

/-- `writeTpConnection`, `writer/arxml_writer.py:6063-6068` -/
def writeTpConnection_TpConnection : WB :=
  /- 6064 -/ .attr k!"T" .raw k!"timestamp" <|
  /- 6064 -/ .attr k!"UUID" .raw k!"uuid" <|
  /- 6067 -/ .each k!"ident" [] .plain [⟨[], [], k!"writeTpConnection_TpConnection_L6067"⟩] .skip <|
  .nil

/-- `writeTpConnectionReceiverRefs`, `writer/arxml_writer.py:6070-6075` -/
def writeTpConnectionReceiverRefs_CanTpConnection : WB :=
  /- 6073 -/ .wrap (.any [(k!"receiverRefs", [])]) k!"RECEIVER-REFS" (
    /- 6075 -/ .prim k!"RECEIVER-REF" .ref k!"receiverRefs" <|
    .nil) <|
  .nil

/-- `writeCanTpConnection`, `writer/arxml_writer.py:6077-6096` -/
def writeCanTpConnection_CanTpConnection : WB :=
  /- 6079 -/ .wrap .always k!"CAN-TP-CONNECTION" (
    /- 6080 -/ writeTpConnection_TpConnection.app <|
    /- 6081 -/ .prim k!"ADDRESSING-FORMAT" .lit k!"addressingFormat" <|
    /- 6082 -/ .prim k!"CAN-TP-CHANNEL-REF" .ref k!"canTpChannelRef" <|
    /- 6083 -/ .prim k!"CANCELLATION" .lit k!"cancellation" <|
    /- 6084 -/ .prim k!"DATA-PDU-REF" .ref k!"dataPduRef" <|
    /- 6085 -/ .prim k!"FLOW-CONTROL-PDU-REF" .ref k!"flowControlPduRef" <|
    /- 6086 -/ .prim k!"MAX-BLOCK-SIZE" .numerical k!"maxBlockSize" <|
    /- 6087 -/ .prim k!"MULTICAST-REF" .ref k!"multicastRef" <|
    /- 6088 -/ .prim k!"PADDING-ACTIVATION" .lit k!"paddingActivation" <|
    /- 6089 -/ writeTpConnectionReceiverRefs_CanTpConnection.app <|
    /- 6090 -/ .prim k!"TA-TYPE" .lit k!"taType" <|
    /- 6091 -/ .prim k!"TIMEOUT-BR" .lit k!"timeoutBr" <|
    /- 6092 -/ .prim k!"TIMEOUT-BS" .lit k!"timeoutBs" <|
    /- 6093 -/ .prim k!"TIMEOUT-CR" .lit k!"timeoutCr" <|
    /- 6094 -/ .prim k!"TIMEOUT-CS" .lit k!"timeoutCs" <|
    /- 6095 -/ .prim k!"TP-SDU-REF" .ref k!"tpSduRef" <|
    /- 6096 -/ .prim k!"TRANSMITTER-REF" .ref k!"transmitterRef" <|
    .nil) <|
  .nil

/-- `writeCanTpEcu`, `writer/arxml_writer.py:6108-6112` -/
def writeCanTpEcu_CanTpEcu : WB :=
  /- 6110 -/ .wrap .always k!"CAN-TP-ECU" (
    /- 6111 -/ .prim k!"CYCLE-TIME-MAIN-FUNCTION" .lit k!"cycleTimeMainFunction" <|
    /- 6112 -/ .prim k!"ECU-INSTANCE-REF" .ref k!"ecuInstanceRef" <|
    .nil) <|
  .nil

/-- `writeCanTpNode`, `writer/arxml_writer.py:6124-6133` -/
def writeCanTpNode_CanTpNode : WB :=
  /- 6126 -/ .wrap .always k!"CAN-TP-NODE" (
    /- 6127 -/ writeIdentifiable_ARPackage.app <|
    /- 6128 -/ .prim k!"CONNECTOR-REF" .ref k!"connectorRef" <|
    /- 6129 -/ .prim k!"MAX-FC-WAIT" .numerical k!"maxFcWait" <|
    /- 6130 -/ .prim k!"ST-MIN" .lit k!"stMin" <|
    /- 6131 -/ .prim k!"TIMEOUT-AR" .lit k!"timeoutAr" <|
    /- 6132 -/ .prim k!"TIMEOUT-AS" .lit k!"timeoutAs" <|
    /- 6133 -/ .prim k!"TP-ADDRESS-REF" .ref k!"tpAddressRef" <|
    .nil) <|
  .nil

/-- `writeChapterContent`, `writer/arxml_writer.py:1606-1608` -/
def writeChapterContent_ChapterContent : WB :=
  /- 1607 -/ .wrap .always k!"CHAPTER-CONTENT" (
    /- 1614 -/ .each k!"topicContent.msrQueryP1" [] .plain [⟨[], [], k!"writeMsrQueryP1_MsrQueryP1"⟩] .skip <|
    /- 1616 -/ .each k!"topicContent.topicContent" [] .plain [⟨[], [], k!"writeTopicContent_TopicContent"⟩] .skip <|
    .nil) <|
  .nil

/-- `writeChapterModel`, `writer/arxml_writer.py:1559-1575` -/
def writeChapterModel_ChapterModel : WB :=
  /- 1560 -/ .wrap .always k!"CHAPTER-MODEL" (
    /- 1563 -/ .each k!"chapterContent" [] .plain [⟨[], [], k!"writeChapterContent_ChapterContent"⟩] .skip <|
    /- 1567 -/ .each k!"topic1.topic1" [] .plain [⟨[], [], k!"writeTopic1_Topic1"⟩] .skip <|
    /- 1569 -/ .each k!"topic1.msrQueryTopic1" [] .plain [⟨[], [], k!"writeMsrQueryTopic1_MsrQueryTopic1"⟩] .skip <|
    /- 1573 -/ .each k!"chapter.chapters" [] .plain [⟨[], [], k!"writeChapter_Chapter_CHAPTER"⟩] .skip <|
    /- 1575 -/ .each k!"chapter.msrQueryChapter" [] .plain [⟨[], [], k!"writeMsrQueryChapter_MsrQueryChapter"⟩] .skip <|
    .nil) <|
  .nil

/-- `writeChapter`, `writer/arxml_writer.py:1550-1557` -/
def writeChapter_Chapter_CHAPTER : WB :=
  /- 1551 -/ .wrap .always k!"CHAPTER" (
    /- 1552 -/ writeIdentifiable_ARPackage.app <|
    /- 1554 -/ .attr k!"HELP-ENTRY" .getValue k!"helpEntry" <|
    /- 1557 -/ .each k!"chapterModel" [] .plain [⟨[], [], k!"writeChapterModel_ChapterModel"⟩] .skip <|
    .nil) <|
  .nil

/-- `writeChapter`, `writer/arxml_writer.py:1550-1557` -/
def writeChapter_Chapter_SW_CALIBRATION_NOTES : WB :=
  /- 1551 -/ .wrap .always k!"SW-CALIBRATION-NOTES" (
    /- 1552 -/ writeIdentifiable_ARPackage.app <|
    /- 1554 -/ .attr k!"HELP-ENTRY" .getValue k!"helpEntry" <|
    /- 1557 -/ .each k!"chapterModel" [] .plain [⟨[], [], k!"writeChapterModel_ChapterModel"⟩] .skip <|
    .nil) <|
  .nil

/-- `writeChapter`, `writer/arxml_writer.py:1550-1557` -/
def writeChapter_Chapter_SW_CARB_DOC : WB :=
  /- 1551 -/ .wrap .always k!"SW-CARB-DOC" (
    /- 1552 -/ writeIdentifiable_ARPackage.app <|
    /- 1554 -/ .attr k!"HELP-ENTRY" .getValue k!"helpEntry" <|
    /- 1557 -/ .each k!"chapterModel" [] .plain [⟨[], [], k!"writeChapterModel_ChapterModel"⟩] .skip <|
    .nil) <|
  .nil

/-- `writeChapter`, `writer/arxml_writer.py:1550-1557` -/
def writeChapter_Chapter_SW_DIAGNOSTICS_NOTES : WB :=
  /- 1551 -/ .wrap .always k!"SW-DIAGNOSTICS-NOTES" (
    /- 1552 -/ writeIdentifiable_ARPackage.app <|
    /- 1554 -/ .attr k!"HELP-ENTRY" .getValue k!"helpEntry" <|
    /- 1557 -/ .each k!"chapterModel" [] .plain [⟨[], [], k!"writeChapterModel_ChapterModel"⟩] .skip <|
    .nil) <|
  .nil

/-- `writeChapter`, `writer/arxml_writer.py:1550-1557` -/
def writeChapter_Chapter_SW_FEATURE_DEF : WB :=
  /- 1551 -/ .wrap .always k!"SW-FEATURE-DEF" (
    /- 1552 -/ writeIdentifiable_ARPackage.app <|
    /- 1554 -/ .attr k!"HELP-ENTRY" .getValue k!"helpEntry" <|
    /- 1557 -/ .each k!"chapterModel" [] .plain [⟨[], [], k!"writeChapterModel_ChapterModel"⟩] .skip <|
    .nil) <|
  .nil

/-- `writeChapter`, `writer/arxml_writer.py:1550-1557` -/
def writeChapter_Chapter_SW_FEATURE_DESC : WB :=
  /- 1551 -/ .wrap .always k!"SW-FEATURE-DESC" (
    /- 1552 -/ writeIdentifiable_ARPackage.app <|
    /- 1554 -/ .attr k!"HELP-ENTRY" .getValue k!"helpEntry" <|
    /- 1557 -/ .each k!"chapterModel" [] .plain [⟨[], [], k!"writeChapterModel_ChapterModel"⟩] .skip <|
    .nil) <|
  .nil

/-- `writeChapter`, `writer/arxml_writer.py:1550-1557` -/
def writeChapter_Chapter_SW_MAINTENANCE_NOTES : WB :=
  /- 1551 -/ .wrap .always k!"SW-MAINTENANCE-NOTES" (
    /- 1552 -/ writeIdentifiable_ARPackage.app <|
    /- 1554 -/ .attr k!"HELP-ENTRY" .getValue k!"helpEntry" <|
    /- 1557 -/ .each k!"chapterModel" [] .plain [⟨[], [], k!"writeChapterModel_ChapterModel"⟩] .skip <|
    .nil) <|
  .nil

/-- `writeChapter`, `writer/arxml_writer.py:1550-1557` -/
def writeChapter_Chapter_SW_TEST_DESC : WB :=
  /- 1551 -/ .wrap .always k!"SW-TEST-DESC" (
    /- 1552 -/ writeIdentifiable_ARPackage.app <|
    /- 1554 -/ .attr k!"HELP-ENTRY" .getValue k!"helpEntry" <|
    /- 1557 -/ .each k!"chapterModel" [] .plain [⟨[], [], k!"writeChapterModel_ChapterModel"⟩] .skip <|
    .nil) <|
  .nil

/-- `writeClientComSpec`, `writer/arxml_writer.py:1291-1297` -/
def writeClientComSpec_ClientComSpec : WB :=
  /- 1293 -/ .wrap .always k!"CLIENT-COM-SPEC" (
    /- 1294 -/ .attr k!"T" .raw k!"timestamp" <|
    /- 1294 -/ .attr k!"UUID" .raw k!"uuid" <|
    /- 1295 -/ .prim k!"END-TO-END-CALL-RESPONSE-TIMEOUT" .lit k!"endToEndCallResponseTimeout" <|
    /- 1296 -/ .prim k!"OPERATION-REF" .ref k!"operationRef" <|
    /- 1301 -/ .wrap (.any [(k!"transformationComSpecProps", [])]) k!"TRANSFORMATION-COM-SPEC-PROPSS" (
      /- 1304 -/ .each k!"transformationComSpecProps" [] .plain [⟨[(false, [k!"UserDefinedTransformationComSpecProps"])], [], k!"writeUserDefinedTransformationComSpecProps_UserDefinedTransformationComSpecProps"⟩,
        ⟨[(false, [k!"EndToEndTransformationComSpecProps"])], [k!"UserDefinedTransformationComSpecProps"], k!"writeEndToEndTransformationComSpecProps_EndToEndTransformationComSpecProps"⟩] .unsupported <|
      .nil) <|
    .nil) <|
  .nil

/-- `writeClientServerAnnotation`, `writer/arxml_writer.py:1435-1437` -/
def writeClientServerAnnotation_ClientServerAnnotation : WB :=
  /- 1436 -/ .wrap .always k!"CLIENT-SERVER-ANNOTATION" (
    /- 1437 -/ .prim k!"OPERATION-REF" .ref k!"operationRef" <|
    .nil) <|
  .nil

/-- `writeClientServerInterfaceMappingOperationMappings`, `writer/arxml_writer.py:8130-8138` -/
def writeClientServerInterfaceMappingOperationMappings_ClientServerInterfaceMapping : WB :=
  /- 8133 -/ .wrap (.any [(k!"operationMappings", [])]) k!"OPERATION-MAPPINGS" (
    /- 8136 -/ .each k!"operationMappings" [] .plain [⟨[(false, [k!"ClientServerOperationMapping"])], [], k!"writeClientServerOperationMapping_ClientServerOperationMapping"⟩] .unsupported <|
    .nil) <|
  .nil

/-- `writeClientServerInterfaceMapping`, `writer/arxml_writer.py:8140-8145` -/
def writeClientServerInterfaceMapping_ClientServerInterfaceMapping : WB :=
  /- 8143 -/ .wrap .always k!"CLIENT-SERVER-INTERFACE-MAPPING" (
    /- 8144 -/ writeIdentifiable_ARPackage.app <|
    /- 8145 -/ writeClientServerInterfaceMappingOperationMappings_ClientServerInterfaceMapping.app <|
    .nil) <|
  .nil

/-- `writeClientServerInterfaceOperations`, `writer/arxml_writer.py:5446-5454` -/
def writeClientServerInterfaceOperations_ClientServerInterface : WB :=
  /- 5449 -/ .wrap (.any [(k!"operations", [])]) k!"OPERATIONS" (
    /- 5452 -/ .each k!"operations" [] .plain [⟨[(false, [k!"ClientServerOperation"])], [], k!"writeClientServerOperation_ClientServerOperation"⟩] .unsupported <|
    .nil) <|
  .nil

/-- `writePortInterface`, `writer/arxml_writer.py:5472-5475` -/
def writePortInterface_PortInterface : WB :=
  /- 5473 -/ writeIdentifiable_ARPackage.app <|
  /- 5474 -/ .prim k!"IS-SERVICE" .lit k!"isService" <|
  /- 5475 -/ .prim k!"SERVICE-KIND" .lit k!"serviceKind" <|
  .nil

/-- `writePossibleErrors`, `writer/arxml_writer.py:5462-5470` -/
def writePossibleErrors_ClientServerInterface : WB :=
  /- 5465 -/ .wrap (.any [(k!"possibleErrors", [])]) k!"POSSIBLE-ERRORS" (
    /- 5468 -/ .each k!"possibleErrors" [] .plain [⟨[(false, [k!"ApplicationError"])], [], k!"writeApplicationError_ApplicationError"⟩] .unsupported <|
    .nil) <|
  .nil

/-- `writeClientServerInterface`, `writer/arxml_writer.py:5502-5507` -/
def writeClientServerInterface_ClientServerInterface : WB :=
  /- 5504 -/ .wrap .always k!"CLIENT-SERVER-INTERFACE" (
    /- 5505 -/ writePortInterface_PortInterface.app <|
    /- 5506 -/ writeClientServerInterfaceOperations_ClientServerInterface.app <|
    /- 5507 -/ writePossibleErrors_ClientServerInterface.app <|
    .nil) <|
  .nil

/-- `writeClientServerOperationArguments`, `writer/arxml_writer.py:5421-5429` -/
def writeClientServerOperationArguments_ClientServerOperation : WB :=
  /- 5424 -/ .wrap (.any [(k!"arguments", [])]) k!"ARGUMENTS" (
    /- 5427 -/ .each k!"arguments" [] .plain [⟨[(false, [k!"ArgumentDataPrototype"])], [], k!"writeArgumentDataPrototype_ArgumentDataPrototype"⟩] .unsupported <|
    .nil) <|
  .nil

/-- `writeClientServerOperationMapping`, `writer/arxml_writer.py:8125-8128` -/
def writeClientServerOperationMapping_ClientServerOperationMapping : WB :=
  /- 8126 -/ .wrap .always k!"CLIENT-SERVER-OPERATION-MAPPING" (
    /- 8127 -/ .prim k!"FIRST-OPERATION-REF" .ref k!"firstOperationRef" <|
    /- 8128 -/ .prim k!"SECOND-OPERATION-REF" .ref k!"secondOperationRef" <|
    .nil) <|
  .nil

/-- `writeClientServerOperationPossibleErrorRefs`, `writer/arxml_writer.py:5431-5436` -/
def writeClientServerOperationPossibleErrorRefs_ClientServerOperation : WB :=
  /- 5434 -/ .wrap (.any [(k!"possibleErrorRefs", [])]) k!"POSSIBLE-ERROR-REFS" (
    /- 5436 -/ .prim k!"POSSIBLE-ERROR-REF" .ref k!"possibleErrorRefs" <|
    .nil) <|
  .nil

/-- `writeClientServerOperation`, `writer/arxml_writer.py:5438-5444` -/
def writeClientServerOperation_ClientServerOperation : WB :=
  /- 5440 -/ .wrap .always k!"CLIENT-SERVER-OPERATION" (
    /- 5441 -/ writeIdentifiable_ARPackage.app <|
    /- 5442 -/ writeClientServerOperationArguments_ClientServerOperation.app <|
    /- 5443 -/ .prim k!"DIAG-ARG-INTEGRITY" .lit k!"diagArgIntegrity" <|
    /- 5444 -/ writeClientServerOperationPossibleErrorRefs_ClientServerOperation.app <|
    .nil) <|
  .nil

/-- `writeCodeCallbackHeaderRefs`, `writer/arxml_writer.py:4016-4021` -/
def writeCodeCallbackHeaderRefs_Code : WB :=
  /- 4019 -/ .wrap (.any [(k!"callbackHeaderRefs", [])]) k!"CALLBACK-HEADER-REFS" (
    /- 4021 -/ .prim k!"CALLBACK-HEADER-REF" .ref k!"callbackHeaderRefs" <|
    .nil) <|
  .nil

/-- `writeCode`, `writer/arxml_writer.py:4009-4014` -/
def writeCode_Code : WB :=
  /- 4011 -/ .wrap .always k!"CODE" (
    /- 4012 -/ writeIdentifiable_ARPackage.app <|
    /- 4013 -/ writeArtifactDescriptor_Code.app <|
    /- 4014 -/ writeCodeCallbackHeaderRefs_Code.app <|
    .nil) <|
  .nil

/-- `writeCollectionElementRefs`, `writer/arxml_writer.py:6895-6900` -/
def writeCollectionElementRefs_Collection : WB :=
  /- 6898 -/ .wrap (.any [(k!"elementRefs", [])]) k!"ELEMENT-REFS" (
    /- 6900 -/ .prim k!"ELEMENT-REF" .ref k!"elementRefs" <|
    .nil) <|
  .nil

/-- `writeCollectionSourceElementRefs`, `writer/arxml_writer.py:6902-6907` -/
def writeCollectionSourceElementRefs_Collection : WB :=
  /- 6905 -/ .wrap (.any [(k!"sourceElementRefs", [])]) k!"SOURCE-ELEMENT-REFS" (
    /- 6907 -/ .prim k!"SOURCE-ELEMENT-REF" .ref k!"sourceElementRefs" <|
    .nil) <|
  .nil

/-- `writeCollection`, `writer/arxml_writer.py:6909-6916` -/
def writeCollection_Collection : WB :=
  /- 6911 -/ .wrap .always k!"COLLECTION" (
    /- 6912 -/ writeARElement_System.app <|
    /- 6913 -/ .prim k!"AUTO-COLLECT" .lit k!"autoCollect" <|
    /- 6914 -/ .prim k!"ELEMENT-ROLE" .lit k!"elementRole" <|
    /- 6915 -/ writeCollectionElementRefs_Collection.app <|
    /- 6916 -/ writeCollectionSourceElementRefs_Collection.app <|
    .nil) <|
  .nil

/-- `writeComMgrUserNeeds`, `writer/arxml_writer.py:3745-3749` -/
def writeComMgrUserNeeds_ComMgrUserNeeds : WB :=
  /- 3747 -/ .wrap .always k!"COM-MGR-USER-NEEDS" (
    /- 3748 -/ writeARElement_System.app <|
    /- 3749 -/ .prim k!"MAX-COMM-MODE" .lit k!"maxCommMode" <|
    .nil) <|
  .nil

/-- `writeCommConnectorPort`, `writer/arxml_writer.py:7480-7482` -/
def writeCommConnectorPort_CommConnectorPort : WB :=
  /- 7481 -/ writeIdentifiable_ARPackage.app <|
  /- 7482 -/ .prim k!"COMMUNICATION-DIRECTION" .lit k!"communicationDirection" <|
  .nil

/-- `writeCompiler`, `writer/arxml_writer.py:4499-4505` -/
def writeCompiler_Compiler : WB :=
  /- 4500 -/ .wrap .always k!"COMPILER" (
    /- 4501 -/ writeIdentifiable_ARPackage.app <|
    /- 4502 -/ .prim k!"NAME" .lit k!"name" <|
    /- 4503 -/ .prim k!"OPTIONS" .lit k!"options" <|
    /- 4504 -/ .prim k!"VENDOR" .lit k!"vendor" <|
    /- 4505 -/ .prim k!"VERSION" .lit k!"version" <|
    .nil) <|
  .nil

/-- `writeComplexDeviceDriverSwComponentType`, `writer/arxml_writer.py:3986-3990` -/
def writeComplexDeviceDriverSwComponentType_ComplexDeviceDriverSwComponentType : WB :=
  /- 3988 -/ .wrap .always k!"COMPLEX-DEVICE-DRIVER-SW-COMPONENT-TYPE" (
    /- 3989 -/ writeAtomicSwComponentType_AtomicSwComponentType.app <|
    /- 3994 -/ .wrap (.any [(k!"hardwareElementRefs", [])]) k!"HARDWARE-ELEMENT-REFS" (
      /- 3996 -/ .prim k!"HARDWARE-ELEMENT-REF" .ref k!"hardwareElementRefs" <|
      .nil) <|
    .nil) <|
  .nil

/-- `writeCompositeNetworkRepresentation`, `writer/arxml_writer.py:1132-1137` -/
def writeCompositeNetworkRepresentation_CompositeNetworkRepresentation : WB :=
  /- 1135 -/ .wrap .always k!"COMPOSITE-NETWORK-REPRESENTATION" (
    /- 1136 -/ .each k!"leafElementIRef" [] .plain [⟨[], [], k!"setApplicationCompositeElementInPortInterfaceInstanceRef_LEAF_ELEMENT_IREF_ApplicationCompositeElementInPortInterfaceInstanceRef"⟩] .skip <|
    /- 1137 -/ .each k!"networkRepresentation" [] .plain [⟨[], [], k!"setSwDataDefProps_NETWORK_REPRESENTATION_SwDataDefProps"⟩] .skip <|
    .nil) <|
  .nil

/-- `writeCompositeRuleBasedValueSpecification`, `writer/arxml_writer.py:2394-2429` -/
def writeCompositeRuleBasedValueSpecification_CompositeRuleBasedValueSpecification : WB :=
  /- 2396 -/ .wrap .always k!"COMPOSITE-RULE-BASED-VALUE-SPECIFICATION" (
    /- 2397 -/ writeValueSpecification_ValueSpecification.app <|
    /- 2398 -/ .prim k!"RULE" .lit k!"rule" <|
    /- 2401 -/ .wrap (.any [(k!"arguments", [])]) k!"ARGUMENTS" (
      /- 2404 -/ .each k!"arguments" [] .plain [⟨[(false, [k!"CompositeRuleBasedValueSpecification"])], [], k!"writeCompositeRuleBasedValueSpecification_CompositeRuleBasedValueSpecification"⟩,
        ⟨[(false, [k!"ArrayValueSpecification"])], [k!"CompositeRuleBasedValueSpecification"], k!"writeArrayValueSpecification_ArrayValueSpecification"⟩,
        ⟨[(false, [k!"RecordValueSpecification"])], [k!"CompositeRuleBasedValueSpecification", k!"ArrayValueSpecification"], k!"writeRecordValueSpecification_RecordValueSpecification"⟩,
        ⟨[(false, [k!"ConstantReference"])], [k!"CompositeRuleBasedValueSpecification", k!"ArrayValueSpecification", k!"RecordValueSpecification"], k!"setConstantReference_ConstantReference"⟩] .unsupported <|
      .nil) <|
    /- 2415 -/ .wrap (.any [(k!"compoundPrimitiveArguments", [])]) k!"COMPOUND-PRIMITIVE-ARGUMENTS" (
      /- 2418 -/ .each k!"compoundPrimitiveArguments" [] .plain [⟨[(false, [k!"ApplicationRuleBasedValueSpecification"])], [], k!"writeApplicationRuleBasedValueSpecification_ApplicationRuleBasedValueSpecification"⟩,
        ⟨[(false, [k!"CompositeRuleBasedValueSpecification"])], [k!"ApplicationRuleBasedValueSpecification"], k!"writeCompositeRuleBasedValueSpecification_CompositeRuleBasedValueSpecification"⟩,
        ⟨[(false, [k!"ArrayValueSpecification"])], [k!"ApplicationRuleBasedValueSpecification", k!"CompositeRuleBasedValueSpecification"], k!"writeArrayValueSpecification_ArrayValueSpecification"⟩,
        ⟨[(false, [k!"RecordValueSpecification"])], [k!"ApplicationRuleBasedValueSpecification", k!"CompositeRuleBasedValueSpecification", k!"ArrayValueSpecification"], k!"writeRecordValueSpecification_RecordValueSpecification"⟩,
        ⟨[(false, [k!"ConstantReference"])], [k!"ApplicationRuleBasedValueSpecification", k!"CompositeRuleBasedValueSpecification", k!"ArrayValueSpecification", k!"RecordValueSpecification"], k!"setConstantReference_ConstantReference"⟩] .unsupported <|
      .nil) <|
    /- 2429 -/ .prim k!"MAX-SIZE-TO-FILL" .numerical k!"maxSizeToFill" <|
    .nil) <|
  .nil

/-- `writeCompositionSwComponentTypeComponents`, `writer/arxml_writer.py:1674-1682` -/
def writeCompositionSwComponentTypeComponents_CompositionSwComponentType : WB :=
  /- 1677 -/ .wrap (.any [(k!"components", [])]) k!"COMPONENTS" (
    /- 1680 -/ .each k!"components" [] .plain [⟨[(false, [k!"SwComponentPrototype"])], [], k!"writeSwComponentPrototype_SwComponentPrototype"⟩] .unsupported <|
    .nil) <|
  .nil

/-- `writeCompositionSwComponentTypeConstantValueMappingSet`, `writer/arxml_writer.py:1756-1761` -/
def writeCompositionSwComponentTypeConstantValueMappingSet_CompositionSwComponentType : WB :=
  /- 1759 -/ .wrap (.any [(k!"constantValueMappingRefs", [])]) k!"CONSTANT-VALUE-MAPPING-REFS" (
    /- 1761 -/ .prim k!"CONSTANT-VALUE-MAPPING-REF" .ref k!"constantValueMappingRefs" <|
    .nil) <|
  .nil

/-- `writeCompositionSwComponentTypeInstantiationRTEEventProps`, `writer/arxml_writer.py:1779-1787` -/
def writeCompositionSwComponentTypeInstantiationRTEEventProps_CompositionSwComponentType : WB :=
  /- 1782 -/ .wrap (.any [(k!"instantiationRTEEventProps", [])]) k!"INSTANTIATION-RTE-EVENT-PROPSS" (
    /- 1785 -/ .each k!"instantiationRTEEventProps" [] .plain [⟨[(false, [k!"InstantiationTimingEventProps"])], [], k!"writeInstantiationRTEEventProps_InstantiationTimingEventProps"⟩] .unsupported <|
    .nil) <|
  .nil

/-- `writeCompositionSwComponentTypeSwConnectors`, `writer/arxml_writer.py:1734-1746` -/
def writeCompositionSwComponentTypeSwConnectors_CompositionSwComponentType : WB :=
  /- 1737 -/ .wrap (.any [(k!"connectors", [])]) k!"CONNECTORS" (
    /- 1740 -/ .each k!"connectors" [] .plain [⟨[(false, [k!"AssemblySwConnector"])], [], k!"writeAssemblySwConnector_AssemblySwConnector"⟩,
      ⟨[(false, [k!"DelegationSwConnector"])], [k!"AssemblySwConnector"], k!"writeDelegationSwConnector_DelegationSwConnector"⟩,
      ⟨[(false, [k!"PassThroughSwConnector"])], [k!"AssemblySwConnector", k!"DelegationSwConnector"], k!"writePassThroughSwConnector_PassThroughSwConnector"⟩] .unsupported <|
    .nil) <|
  .nil

/-- `writeCompositionSwComponentType`, `writer/arxml_writer.py:1789-1797` -/
def writeCompositionSwComponentType_CompositionSwComponentType : WB :=
  /- 1790 -/ .wrap .always k!"COMPOSITION-SW-COMPONENT-TYPE" (
    /- 1792 -/ writeSwComponentType_SwComponentType.app <|
    /- 1793 -/ writeCompositionSwComponentTypeComponents_CompositionSwComponentType.app <|
    /- 1794 -/ writeCompositionSwComponentTypeSwConnectors_CompositionSwComponentType.app <|
    /- 1795 -/ writeDataTypeMappingRefs_InternalBehavior.app <|
    /- 1796 -/ writeCompositionSwComponentTypeConstantValueMappingSet_CompositionSwComponentType.app <|
    /- 1797 -/ writeCompositionSwComponentTypeInstantiationRTEEventProps_CompositionSwComponentType.app <|
    .nil) <|
  .nil

/-- `writeCompuMethod`, `writer/arxml_writer.py:2321-2327` -/
def writeCompuMethod_CompuMethod : WB :=
  /- 2322 -/ .wrap .always k!"COMPU-METHOD" (
    /- 2324 -/ writeIdentifiable_ARPackage.app <|
    /- 2325 -/ .prim k!"UNIT-REF" .ref k!"unitRef" <|
    /- 2326 -/ .each k!"compuInternalToPhys" [] .plain [⟨[], [], k!"setCompu_COMPU_INTERNAL_TO_PHYS_Compu"⟩] .skip <|
    /- 2327 -/ .each k!"compuPhysToInternal" [] .plain [⟨[], [], k!"setCompu_COMPU_PHYS_TO_INTERNAL_Compu"⟩] .skip <|
    .nil) <|
  .nil

/-- `writeCompuScaleContents`, `writer/arxml_writer.py:2271-2277` -/
def writeCompuScaleContents_CompuScale : WB :=
  /- 2253 -/ .wrap (.any [(k!"compuScaleContents.compuConst.compuConstContentType.vt", [])]) k!"COMPU-CONST" (
    /- 2255 -/ .prim k!"VT" .lit k!"compuScaleContents.compuConst.compuConstContentType.vt" <|
    .nil) <|
  /- 2265 -/ .when (.none [(k!"compuScaleContents.compuConst.compuConstContentType.vt", [])]) (
    /- 2265 -/ .each k!"compuScaleContents.compuRationalCoeffs" [] .plain [⟨[], [], k!"writeCompuScaleContents_CompuScale_L2265"⟩] .skip <|
    .nil) <|
  /- 2277 -/ .when (.none [(k!"compuScaleContents.compuConst.compuConstContentType.vt", [])]) (
    /- 2277 -/ .when (.none [(k!"compuScaleContents.compuRationalCoeffs", [])]) (
      /- 2277 -/ .fail .notImplemented false <|
      .nil) <|
    .nil) <|
  .nil

/-- `writeCompuScaleContents`, `writer/arxml_writer.py:2271-2277` (the block at line 2265) -/
def writeCompuScaleContents_CompuScale_L2265 : WB :=
  /- 2265 -/ .wrap .always k!"COMPU-RATIONAL-COEFFS" (
    /- 2258 -/ .wrap .always k!"COMPU-NUMERATOR" (
      /- 2260 -/ .prim k!"V" .raw k!"compuNumerator.v" <|
      .nil) <|
    /- 2258 -/ .wrap .always k!"COMPU-DENOMINATOR" (
      /- 2260 -/ .prim k!"V" .raw k!"compuDenominator.v" <|
      .nil) <|
    .nil) <|
  .nil

/-- `writeCompuScale`, `writer/arxml_writer.py:2290-2300` -/
def writeCompuScale_COMPU_SCALE_CompuScale : WB :=
  /- 2292 -/ .wrap .always k!"COMPU-SCALE" (
    /- 2293 -/ .attr k!"T" .raw k!"timestamp" <|
    /- 2293 -/ .attr k!"UUID" .raw k!"uuid" <|
    /- 2294 -/ .prim k!"SHORT-LABEL" .lit k!"shortLabel" <|
    /- 2295 -/ .prim k!"SYMBOL" .lit k!"symbol" <|
    /- 2296 -/ .each k!"desc" [] .plain [⟨[], [], k!"setMultiLanguageOverviewParagraph_DESC_MultiLanguageOverviewParagraph"⟩] .skip <|
    /- 2297 -/ .prim k!"MASK" .numerical k!"mask" <|
    /- 2298 -/ .prim k!"LOWER-LIMIT" .limit k!"lowerLimit" <|
    /- 2299 -/ .prim k!"UPPER-LIMIT" .limit k!"upperLimit" <|
    /- 2300 -/ writeCompuScaleContents_CompuScale.app <|
    .nil) <|
  .nil

/-- `writeConditionByFormula`, `writer/arxml_writer.py:782-792` -/
def writeConditionByFormula_ConditionByFormula : WB :=
  /- 784 -/ .wrap .always k!"SW-SYSCOND" (
    /- 785 -/ .attr k!"T" .raw k!"timestamp" <|
    /- 785 -/ .attr k!"UUID" .raw k!"uuid" <|
    /- 792 -/ .attr k!"BINDING-TIME" (.mapped .bindingTime) k!"bindingTime" <|
    .nil) <|
  .nil

/-- `writeConditionByFormula`, `writer/arxml_writer.py:782-792` -/
def writeConditionByFormula_ConditionByFormula_CONDITION_ACCESS : WB :=
  /- 784 -/ .wrap .always k!"CONDITION-ACCESS" (
    /- 785 -/ .attr k!"T" .raw k!"timestamp" <|
    /- 785 -/ .attr k!"UUID" .raw k!"uuid" <|
    /- 792 -/ .attr k!"BINDING-TIME" (.mapped .bindingTime) k!"bindingTime" <|
    .nil) <|
  .nil

/-- `writeConsistencyNeedsDpgDoesNotRequireCoherencys`, `writer/arxml_writer.py:3036-3040` -/
def writeConsistencyNeedsDpgDoesNotRequireCoherencys_ConsistencyNeeds : WB :=
  /- 3038 -/ .wrap (.any [(k!"dpgDoesNotRequireCoherency", [])]) k!"DPG-DOES-NOT-REQUIRE-COHERENCYS" (
    /- 3040 -/ .each k!"dpgDoesNotRequireCoherency" [] .plain [⟨[], [], k!"writeDataPrototypeGroup_DataPrototypeGroup"⟩] .skip <|
    .nil) <|
  .nil

/-- `writeConsistencyNeedsDpgRequiresCoherencys`, `writer/arxml_writer.py:3042-3046` -/
def writeConsistencyNeedsDpgRequiresCoherencys_ConsistencyNeeds : WB :=
  /- 3044 -/ .wrap (.any [(k!"dpgRequiresCoherency", [])]) k!"DPG-REQUIRES-COHERENCYS" (
    /- 3046 -/ .each k!"dpgRequiresCoherency" [] .plain [⟨[], [], k!"writeDataPrototypeGroup_DataPrototypeGroup"⟩] .skip <|
    .nil) <|
  .nil

/-- `writeConsistencyNeedsRegDoesNotRequireStabilitys`, `writer/arxml_writer.py:3048-3052` -/
def writeConsistencyNeedsRegDoesNotRequireStabilitys_ConsistencyNeeds : WB :=
  /- 3050 -/ .wrap (.any [(k!"regDoesNotRequireStability", [])]) k!"REG-DOES-NOT-REQUIRE-STABILITYS" (
    /- 3052 -/ .each k!"regDoesNotRequireStability" [] .plain [⟨[], [], k!"writeRunnableEntityGroup_RunnableEntityGroup"⟩] .skip <|
    .nil) <|
  .nil

/-- `writeConsistencyNeedsRegRequiresStabilitys`, `writer/arxml_writer.py:3054-3058` -/
def writeConsistencyNeedsRegRequiresStabilitys_ConsistencyNeeds : WB :=
  /- 3056 -/ .wrap (.any [(k!"regRequiresStability", [])]) k!"REG-REQUIRES-STABILITYS" (
    /- 3058 -/ .each k!"regRequiresStability" [] .plain [⟨[], [], k!"writeRunnableEntityGroup_RunnableEntityGroup"⟩] .skip <|
    .nil) <|
  .nil

/-- `writeConsistencyNeeds`, `writer/arxml_writer.py:3060-3067` -/
def writeConsistencyNeeds_ConsistencyNeeds : WB :=
  /- 3062 -/ .wrap .always k!"CONSISTENCY-NEEDS" (
    /- 3063 -/ writeIdentifiable_ARPackage.app <|
    /- 3064 -/ writeConsistencyNeedsDpgDoesNotRequireCoherencys_ConsistencyNeeds.app <|
    /- 3065 -/ writeConsistencyNeedsDpgRequiresCoherencys_ConsistencyNeeds.app <|
    /- 3066 -/ writeConsistencyNeedsRegDoesNotRequireStabilitys_ConsistencyNeeds.app <|
    /- 3067 -/ writeConsistencyNeedsRegRequiresStabilitys_ConsistencyNeeds.app <|
    .nil) <|
  .nil

/-- `writeConstantSpecification`, `writer/arxml_writer.py:2456-2461` -/
def writeConstantSpecification_ConstantSpecification : WB :=
  /- 2457 -/ .wrap .always k!"CONSTANT-SPECIFICATION" (
    /- 2458 -/ writeIdentifiable_ARPackage.app <|
    /- 1251 -/ .wrap (.any [(k!"valueSpec", [])]) k!"VALUE-SPEC" (
      /- 1253 -/ .each k!"valueSpec" [] .plain [⟨[(false, [k!"ApplicationValueSpecification"])], [], k!"writeApplicationValueSpecification_ApplicationValueSpecification"⟩,
        ⟨[(false, [k!"ApplicationRuleBasedValueSpecification"])], [k!"ApplicationValueSpecification"], k!"writeApplicationRuleBasedValueSpecification_ApplicationRuleBasedValueSpecification"⟩,
        ⟨[(false, [k!"CompositeRuleBasedValueSpecification"])], [k!"ApplicationValueSpecification", k!"ApplicationRuleBasedValueSpecification"], k!"writeCompositeRuleBasedValueSpecification_CompositeRuleBasedValueSpecification"⟩,
        ⟨[(false, [k!"TextValueSpecification"])], [k!"ApplicationValueSpecification", k!"ApplicationRuleBasedValueSpecification", k!"CompositeRuleBasedValueSpecification"], k!"writeTextValueSpecification_TextValueSpecification"⟩,
        ⟨[(false, [k!"ConstantReference"])], [k!"ApplicationValueSpecification", k!"ApplicationRuleBasedValueSpecification", k!"CompositeRuleBasedValueSpecification", k!"TextValueSpecification"], k!"setConstantReference_ConstantReference"⟩,
        ⟨[(false, [k!"NumericalValueSpecification"])], [k!"ApplicationValueSpecification", k!"ApplicationRuleBasedValueSpecification", k!"CompositeRuleBasedValueSpecification", k!"TextValueSpecification", k!"ConstantReference"], k!"writeNumericalValueSpecification_NumericalValueSpecification"⟩,
        ⟨[(false, [k!"ArrayValueSpecification"])], [k!"ApplicationValueSpecification", k!"ApplicationRuleBasedValueSpecification", k!"CompositeRuleBasedValueSpecification", k!"TextValueSpecification", k!"ConstantReference", k!"NumericalValueSpecification"], k!"writeArrayValueSpecification_ArrayValueSpecification"⟩,
        ⟨[(false, [k!"RecordValueSpecification"])], [k!"ApplicationValueSpecification", k!"ApplicationRuleBasedValueSpecification", k!"CompositeRuleBasedValueSpecification", k!"TextValueSpecification", k!"ConstantReference", k!"NumericalValueSpecification", k!"ArrayValueSpecification"], k!"writeRecordValueSpecification_RecordValueSpecification"⟩] .unsupported <|
      .nil) <|
    .nil) <|
  .nil

/-- `writeConsumedEventGroupRoutingGroupRefs`, `writer/arxml_writer.py:6569-6574` -/
def writeConsumedEventGroupRoutingGroupRefs_ConsumedEventGroup : WB :=
  /- 6572 -/ .wrap (.any [(k!"routingGroupRefs", [])]) k!"ROUTING-GROUP-REFS" (
    /- 6574 -/ .prim k!"ROUTING-GROUP-REF" .ref k!"routingGroupRefs" <|
    .nil) <|
  .nil

/-- `writeConsumedEventGroup`, `writer/arxml_writer.py:6592-6599` -/
def writeConsumedEventGroup_ConsumedEventGroup : WB :=
  /- 6594 -/ .wrap .always k!"CONSUMED-EVENT-GROUP" (
    /- 6595 -/ writeIdentifiable_ARPackage.app <|
    /- 6596 -/ .prim k!"APPLICATION-ENDPOINT-REF" .ref k!"applicationEndpointRef" <|
    /- 6597 -/ .prim k!"EVENT-GROUP-IDENTIFIER" .numerical k!"eventGroupIdentifier" <|
    /- 6598 -/ writeConsumedEventGroupRoutingGroupRefs_ConsumedEventGroup.app <|
    /- 6599 -/ .each k!"sdClientConfig" [] .plain [⟨[], [], k!"setSdClientConfig_SD_CLIENT_CONFIG_SdClientConfig"⟩] .skip <|
    .nil) <|
  .nil

/-- `writeConsumedServiceInstanceConsumedEventGroups`, `writer/arxml_writer.py:6601-6609` -/
def writeConsumedServiceInstanceConsumedEventGroups_ConsumedServiceInstance : WB :=
  /- 6604 -/ .wrap (.any [(k!"consumedEventGroups", [])]) k!"CONSUMED-EVENT-GROUPS" (
    /- 6607 -/ .each k!"consumedEventGroups" [] .plain [⟨[(false, [k!"ConsumedEventGroup"])], [], k!"writeConsumedEventGroup_ConsumedEventGroup"⟩] .unsupported <|
    .nil) <|
  .nil

/-- `writeConsumedServiceInstance`, `writer/arxml_writer.py:6611-6617` -/
def writeConsumedServiceInstance_ConsumedServiceInstance : WB :=
  /- 6613 -/ .wrap .always k!"CONSUMED-SERVICE-INSTANCE" (
    /- 6614 -/ writeIdentifiable_ARPackage.app <|
    /- 6615 -/ writeConsumedServiceInstanceConsumedEventGroups_ConsumedServiceInstance.app <|
    /- 6616 -/ .prim k!"PROVIDED-SERVICE-INSTANCE-REF" .ref k!"providedServiceInstanceRef" <|
    /- 6617 -/ .each k!"sdClientConfig" [] .plain [⟨[], [], k!"setSdClientConfig_SD_CLIENT_CONFIG_SdClientConfig"⟩] .skip <|
    .nil) <|
  .nil

/-- `writeContainedIPduProps`, `writer/arxml_writer.py:8708-8717` -/
def writeContainedIPduProps_ContainedIPduProps : WB :=
  /- 8710 -/ .wrap .always k!"CONTAINED-I-PDU-PROPS" (
    /- 8711 -/ .prim k!"COLLECTION-SEMANTICS" .lit k!"collectionSemantics" <|
    /- 8712 -/ .prim k!"HEADER-ID-LONG-HEADER" .numerical k!"headerIdLongHeader" <|
    /- 8713 -/ .prim k!"HEADER-ID-SHORT-HEADER" .numerical k!"headerIdShortHeader" <|
    /- 8714 -/ .prim k!"OFFSET" .numerical k!"offset" <|
    /- 8715 -/ .prim k!"TIMEOUT" .numerical k!"timeout" <|
    /- 8716 -/ .prim k!"TRIGGER" .lit k!"trigger" <|
    /- 8717 -/ .prim k!"UPDATE-INDICATION-BIT-POSITION" .numerical k!"updateIndicationBitPosition" <|
    .nil) <|
  .nil

/-- `writeCouplingPortFifo`, `writer/arxml_writer.py:7636-7639` -/
def writeCouplingPortFifo_CouplingPortFifo : WB :=
  /- 7638 -/ .wrap .always k!"COUPLING-PORT-FIFO" (
    /- 7639 -/ writeARElement_System.app <|
    .nil) <|
  .nil

/-- `writeCouplingPortScheduler`, `writer/arxml_writer.py:7641-7645` -/
def writeCouplingPortScheduler_CouplingPortScheduler : WB :=
  /- 7643 -/ .wrap .always k!"COUPLING-PORT-SCHEDULER" (
    /- 7644 -/ writeARElement_System.app <|
    /- 7645 -/ .prim k!"PORT-SCHEDULER" .lit k!"portScheduler" <|
    .nil) <|
  .nil

/-- `writeCouplingPortVlanMemberships`, `writer/arxml_writer.py:7689-7697` -/
def writeCouplingPortVlanMemberships_CouplingPort : WB :=
  /- 7692 -/ .wrap (.any [(k!"vlanMemberships", [])]) k!"VLAN-MEMBERSHIPS" (
    /- 7695 -/ .each k!"vlanMemberships" [] .plain [⟨[(false, [k!"VlanMembership"])], [], k!"writeVlanMembership_VlanMembership"⟩] .unsupported <|
    .nil) <|
  .nil

/-- `writeCouplingPort`, `writer/arxml_writer.py:7699-7704` -/
def writeCouplingPort_CouplingPort : WB :=
  /- 7700 -/ .wrap .always k!"COUPLING-PORT" (
    /- 7701 -/ writeIdentifiable_ARPackage.app <|
    /- 7702 -/ .each k!"couplingPortDetails" [] .plain [⟨[], [], k!"setCouplingPortDetails_COUPLING_PORT_DETAILS_CouplingPortDetails"⟩] .skip <|
    /- 7703 -/ .prim k!"MAC-LAYER-TYPE" .lit k!"macLayerType" <|
    /- 7704 -/ writeCouplingPortVlanMemberships_CouplingPort.app <|
    .nil) <|
  .nil

/-- `writeCryptoServiceNeeds`, `writer/arxml_writer.py:3723-3727` -/
def writeCryptoServiceNeeds_CryptoServiceNeeds : WB :=
  /- 3725 -/ .wrap .always k!"CRYPTO-SERVICE-NEEDS" (
    /- 3726 -/ writeARElement_System.app <|
    /- 3727 -/ .prim k!"MAXIMUM-KEY-LENGTH" .numerical k!"maximumKeyLength" <|
    .nil) <|
  .nil

/-- `writeCycleRepetition`, `writer/arxml_writer.py:6259-6264` -/
def writeCycleRepetition_CycleRepetition : WB :=
  /- 6261 -/ .wrap .always k!"CYCLE-REPETITION" (
    /- 6262 -/ writeCommunicationCycle_CommunicationCycle.app <|
    /- 6263 -/ .prim k!"BASE-CYCLE" .numerical k!"BaseCycle" <|
    /- 6264 -/ .prim k!"CYCLE-REPETITION" .lit k!"CycleRepetition" <|
    .nil) <|
  .nil

/-- `writeDataConstrRules`, `writer/arxml_writer.py:2514-2523` -/
def writeDataConstrRules_DataConstr : WB :=
  /- 2517 -/ .wrap (.any [(k!"data_constr_rule", [])]) k!"DATA-CONSTR-RULES" (
    /- 2519 -/ .each k!"data_constr_rule" [] .plain [⟨[], [], k!"writeDataConstrRules_DataConstr_L2519"⟩] .skip <|
    .nil) <|
  .nil

/-- `writeDataConstrRules`, `writer/arxml_writer.py:2514-2523` (the block at line 2519) -/
def writeDataConstrRules_DataConstr_L2519 : WB :=
  /- 2519 -/ .wrap .always k!"DATA-CONSTR-RULE" (
    /- 2520 -/ .attr k!"T" .raw k!"timestamp" <|
    /- 2520 -/ .attr k!"UUID" .raw k!"uuid" <|
    /- 2521 -/ .prim k!"CONSTR-LEVEL" .numerical k!"constrLevel" <|
    /- 2522 -/ .each k!"physConstrs" [] .plain [⟨[], [], k!"setPhysConstrs_PhysConstrs"⟩] .skip <|
    /- 2523 -/ .each k!"internalConstrs" [] .plain [⟨[], [], k!"setInternalConstrs_InternalConstrs"⟩] .skip <|
    .nil) <|
  .nil

/-- `writeDataConstr`, `writer/arxml_writer.py:2525-2528` -/
def writeDataConstr_DataConstr : WB :=
  /- 2526 -/ .wrap .always k!"DATA-CONSTR" (
    /- 2527 -/ writeIdentifiable_ARPackage.app <|
    /- 2528 -/ writeDataConstrRules_DataConstr.app <|
    .nil) <|
  .nil

/-- `writeDataInterface`, `writer/arxml_writer.py:5477-5478` -/
def writeDataInterface_DataInterface : WB :=
  /- 5478 -/ writePortInterface_PortInterface.app <|
  .nil

/-- `writeDataPrototypeGroupDataPrototypeGroupIRefs`, `writer/arxml_writer.py:2994-2999` -/
def writeDataPrototypeGroupDataPrototypeGroupIRefs_DataPrototypeGroup : WB :=
  /- 2997 -/ .wrap (.any [(k!"dataPrototypeGroupIRefs", [])]) k!"DATA-PROTOTYPE-GROUP-IREFS" (
    /- 2999 -/ .each k!"dataPrototypeGroupIRefs" [] .plain [⟨[], [], k!"writeInnerDataPrototypeGroupInCompositionInstanceRef_DATA_PROTOTYPE_GROUP_IREF_InnerDataPrototypeGroupInCompositionInstanceRef"⟩] .skip <|
    .nil) <|
  .nil

/-- `writeDataPrototypeGroupImplicitDataAccessIRefs`, `writer/arxml_writer.py:3001-3006` -/
def writeDataPrototypeGroupImplicitDataAccessIRefs_DataPrototypeGroup : WB :=
  /- 3004 -/ .wrap (.any [(k!"implicitDataAccessIRefs", [])]) k!"IMPLICIT-DATA-ACCESS-IREFS" (
    /- 3006 -/ .each k!"implicitDataAccessIRefs" [] .plain [⟨[], [], k!"writeVariableDataPrototypeInCompositionInstanceRef_IMPLICIT_DATA_ACCESS_IREF_VariableDataPrototypeInCompositionInstanceRef"⟩] .skip <|
    .nil) <|
  .nil

/-- `writeDataPrototypeGroup`, `writer/arxml_writer.py:3008-3013` -/
def writeDataPrototypeGroup_DataPrototypeGroup : WB :=
  /- 3010 -/ .wrap .always k!"DATA-PROTOTYPE-GROUP" (
    /- 3011 -/ writeIdentifiable_ARPackage.app <|
    /- 3012 -/ writeDataPrototypeGroupDataPrototypeGroupIRefs_DataPrototypeGroup.app <|
    /- 3013 -/ writeDataPrototypeGroupImplicitDataAccessIRefs_DataPrototypeGroup.app <|
    .nil) <|
  .nil

/-- `writeDataPrototypeInClientServerInterfaceInstanceRef`, `writer/arxml_writer.py:8494-8502` -/
def writeDataPrototypeInClientServerInterfaceInstanceRef_DataPrototypeInClientServerInterfaceInstanceRef : WB :=
  /- 8495 -/ .wrap .always k!"DATA-PROTOTYPE-IN-CLIENT-SERVER-INTERFACE-REF" (
    /- 8496 -/ .attr k!"T" .raw k!"timestamp" <|
    /- 8496 -/ .attr k!"UUID" .raw k!"uuid" <|
    /- 8497 -/ .prim k!"BASE" .ref k!"baseRef" <|
    /- 8500 -/ .oprim k!"CONTEXT-DATA-PROTOTYPE-IN-CS" k!"CONTEXT-DATA-PROTOTYPE-IN-CS" .ref k!"contextDataPrototypeInCsRefs" <|
    /- 8501 -/ .prim k!"ROOT-DATA-PROTOTYPE-IN-CS" .ref k!"rootDataPrototypeInCsRef" <|
    /- 8502 -/ .prim k!"TARGET-DATA-PROTOTYPE-IN-CS" .ref k!"targetDataPrototypeInCsRef" <|
    .nil) <|
  .nil

/-- `writeDataPrototypeInPortInterfaceRef`, `writer/arxml_writer.py:8476-8482` -/
def writeDataPrototypeInPortInterfaceRef_DataPrototypeInPortInterfaceRef : WB :=
  /- 8477 -/ .wrap .always k!"DATA-PROTOTYPE-IN-PORT-INTERFACE-REF" (
    /- 8478 -/ .attr k!"T" .raw k!"timestamp" <|
    /- 8478 -/ .attr k!"UUID" .raw k!"uuid" <|
    /- 8479 -/ .prim k!"TAG-ID" .numerical k!"tagId" <|
    /- 8482 -/ .each k!"dataPrototypeInClientServerInterface" [] .plain [⟨[], [], k!"writeDataPrototypeInClientServerInterfaceInstanceRef_DataPrototypeInClientServerInterfaceInstanceRef"⟩] .skip <|
    .nil) <|
  .nil

/-- `writeDataPrototypeTransformationProps`, `writer/arxml_writer.py:8504-8511` -/
def writeDataPrototypeTransformationProps_DataPrototypeTransformationProps : WB :=
  /- 8505 -/ .wrap .always k!"DATA-PROTOTYPE-TRANSFORMATION-PROPS" (
    /- 8506 -/ .attr k!"T" .raw k!"timestamp" <|
    /- 8506 -/ .attr k!"UUID" .raw k!"uuid" <|
    /- 8509 -/ .each k!"dataPrototypeInPortInterfaceRef" [] .plain [⟨[], [], k!"writeDataPrototypeInPortInterfaceRef_DataPrototypeInPortInterfaceRef"⟩] .skip <|
    /- 8510 -/ .each k!"networkRepresentationProps" [] .plain [⟨[], [], k!"setSwDataDefProps_NETWORK_REPRESENTATION_PROPS_SwDataDefProps"⟩] .skip <|
    /- 8511 -/ .prim k!"TRANSFORMATION-PROPS" .ref k!"transformationProps" <|
    .nil) <|
  .nil

/-- `writeDataReceivedEvent`, `writer/arxml_writer.py:2600-2604` -/
def writeDataReceivedEvent_DataReceivedEvent : WB :=
  /- 2602 -/ .wrap .always k!"DATA-RECEIVED-EVENT" (
    /- 2603 -/ setRTEEvent_RTEEvent.app <|
    /- 2604 -/ .each k!"dataIRef" [] .plain [⟨[], [], k!"setRVariableInAtomicSwcInstanceRef_RVariableInAtomicSwcInstanceRef"⟩] .skip <|
    .nil) <|
  .nil

/-- `writeDataSendCompletedEvent`, `writer/arxml_writer.py:2631-2635` -/
def writeDataSendCompletedEvent_DataSendCompletedEvent : WB :=
  /- 2633 -/ .wrap .always k!"DATA-SEND-COMPLETED-EVENT" (
    /- 2634 -/ setRTEEvent_RTEEvent.app <|
    /- 2635 -/ .prim k!"EVENT-SOURCE-REF" .ref k!"eventSourceRef" <|
    .nil) <|
  .nil

/-- `writeDataTransformationSetDataTransformations`, `writer/arxml_writer.py:9215-9223` -/
def writeDataTransformationSetDataTransformations_DataTransformationSet : WB :=
  /- 9218 -/ .wrap (.any [(k!"dataTransformations", [])]) k!"DATA-TRANSFORMATIONS" (
    /- 9221 -/ .each k!"dataTransformations" [] .plain [⟨[(false, [k!"DataTransformation"])], [], k!"writeDataTransformation_DataTransformation"⟩] .unsupported <|
    .nil) <|
  .nil

/-- `writeDataTransformationSetTransformationTechnologies`, `writer/arxml_writer.py:9225-9233` -/
def writeDataTransformationSetTransformationTechnologies_DataTransformationSet : WB :=
  /- 9228 -/ .wrap (.any [(k!"transformationTechnologies", [])]) k!"TRANSFORMATION-TECHNOLOGYS" (
    /- 9231 -/ .each k!"transformationTechnologies" [] .plain [⟨[(false, [k!"TransformationTechnology"])], [], k!"writeTransformationTechnology_TransformationTechnology"⟩] .unsupported <|
    .nil) <|
  .nil

/-- `writeDataTransformationSet`, `writer/arxml_writer.py:9299-9304` -/
def writeDataTransformationSet_DataTransformationSet : WB :=
  /- 9301 -/ .wrap .always k!"DATA-TRANSFORMATION-SET" (
    /- 9302 -/ writeIdentifiable_ARPackage.app <|
    /- 9303 -/ writeDataTransformationSetDataTransformations_DataTransformationSet.app <|
    /- 9304 -/ writeDataTransformationSetTransformationTechnologies_DataTransformationSet.app <|
    .nil) <|
  .nil

/-- `writeDataTransformationTransformerChainRefs`, `writer/arxml_writer.py:9200-9205` -/
def writeDataTransformationTransformerChainRefs_DataTransformation : WB :=
  /- 9203 -/ .wrap (.any [(k!"transformerChainRefs", [])]) k!"TRANSFORMER-CHAIN-REFS" (
    /- 9205 -/ .prim k!"TRANSFORMER-CHAIN-REF" .ref k!"transformerChainRefs" <|
    .nil) <|
  .nil

/-- `writeDataTransformation`, `writer/arxml_writer.py:9207-9213` -/
def writeDataTransformation_DataTransformation : WB :=
  /- 9209 -/ .wrap .always k!"DATA-TRANSFORMATION" (
    /- 9210 -/ writeIdentifiable_ARPackage.app <|
    /- 9211 -/ .prim k!"DATA-TRANSFORMATION-KIND" .lit k!"dataTransformationKind" <|
    /- 9212 -/ .prim k!"EXECUTE-DESPITE-DATA-UNAVAILABILITY" .lit k!"executeDespiteDataUnavailability" <|
    /- 9213 -/ writeDataTransformationTransformerChainRefs_DataTransformation.app <|
    .nil) <|
  .nil

/-- `writeDataTypeMaps`, `writer/arxml_writer.py:5617-5625` -/
def writeDataTypeMaps_DataTypeMappingSet : WB :=
  /- 5620 -/ .wrap (.any [(k!"dataTypeMaps", [])]) k!"DATA-TYPE-MAPS" (
    /- 5622 -/ .each k!"dataTypeMaps" [] .plain [⟨[], [], k!"writeDataTypeMaps_DataTypeMappingSet_L5622"⟩] .skip <|
    .nil) <|
  .nil

/-- `writeModeRequestTypeMaps`, `writer/arxml_writer.py:5627-5635` -/
def writeModeRequestTypeMaps_DataTypeMappingSet : WB :=
  /- 5630 -/ .wrap (.any [(k!"modeRequestTypeMaps", [])]) k!"MODE-REQUEST-TYPE-MAPS" (
    /- 5632 -/ .each k!"modeRequestTypeMaps" [] .plain [⟨[], [], k!"writeModeRequestTypeMaps_DataTypeMappingSet_L5632"⟩] .skip <|
    .nil) <|
  .nil

/-- `writeDataTypeMappingSet`, `writer/arxml_writer.py:5637-5642` -/
def writeDataTypeMappingSet_DataTypeMappingSet : WB :=
  /- 5639 -/ .wrap .always k!"DATA-TYPE-MAPPING-SET" (
    /- 5640 -/ writeIdentifiable_ARPackage.app <|
    /- 5641 -/ writeDataTypeMaps_DataTypeMappingSet.app <|
    /- 5642 -/ writeModeRequestTypeMaps_DataTypeMappingSet.app <|
    .nil) <|
  .nil

/-- `writeDataTypeMaps`, `writer/arxml_writer.py:5617-5625` (the block at line 5622) -/
def writeDataTypeMaps_DataTypeMappingSet_L5622 : WB :=
  /- 5622 -/ .wrap .always k!"DATA-TYPE-MAP" (
    /- 5623 -/ .attr k!"T" .raw k!"timestamp" <|
    /- 5623 -/ .attr k!"UUID" .raw k!"uuid" <|
    /- 5624 -/ .prim k!"APPLICATION-DATA-TYPE-REF" .ref k!"applicationDataTypeRef" <|
    /- 5625 -/ .prim k!"IMPLEMENTATION-DATA-TYPE-REF" .ref k!"implementationDataTypeRef" <|
    .nil) <|
  .nil

end Verif.Gen.W
