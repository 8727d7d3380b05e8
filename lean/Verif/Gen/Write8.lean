import Verif.Gen.Write7
-- generated by tools/gen_codec.py; do not edit
namespace Verif.Gen.W
open Verif Verif.Model

/-- `writeSignalServiceTranslationEventProps`, `writer/arxml_writer.py:8608-8618` -/
def writeSignalServiceTranslationEventProps_SignalServiceTranslationEventProps : WB :=
  /- 8610 -/ .wrap .always k!"SIGNAL-SERVICE-TRANSLATION-EVENT-PROPS" (
    /- 8611 -/ writeIdentifiable_ARPackage.app <|
    /- 8615 -/ .each k!"elementProps" [] .plain [⟨[], [], k!"writeSignalServiceTranslationElementProps_SignalServiceTranslationElementProps"⟩] .skip <|
    /- 8616 -/ .prim k!"SAFE-TRANSLATION" .lit k!"safeTranslation" <|
    /- 8617 -/ .prim k!"SECURE-TRANSLATION" .lit k!"secureTranslation" <|
    /- 8618 -/ .each k!"translationTarget" [] .plain [⟨[], [], k!"setVariableDataPrototypeInSystemInstanceRef_TRANSLATION_TARGET_VariableDataPrototypeInSystemInstanceRef"⟩] .skip <|
    .nil) <|
  .nil

/-- `writeSignalServiceTranslationPropsSet`, `writer/arxml_writer.py:8574-8581` -/
def writeSignalServiceTranslationPropsSet_SignalServiceTranslationPropsSet : WB :=
  /- 8576 -/ .wrap .always k!"SIGNAL-SERVICE-TRANSLATION-PROPS-SET" (
    /- 8577 -/ writeIdentifiable_ARPackage.app <|
    /- 8581 -/ .each k!"signalServiceTranslationProps" [] .plain [⟨[], [], k!"writeSignalServiceTranslationProps_SignalServiceTranslationProps"⟩] .skip <|
    .nil) <|
  .nil

/-- `writeSignalServiceTranslationProps`, `writer/arxml_writer.py:8583-8606` -/
def writeSignalServiceTranslationProps_SignalServiceTranslationProps : WB :=
  /- 8585 -/ .wrap .always k!"SIGNAL-SERVICE-TRANSLATION-PROPS" (
    /- 8586 -/ writeIdentifiable_ARPackage.app <|
    /- 8589 -/ .wrap (.any [(k!"controlConsumedEventGroupRefs", [])]) k!"CONTROL-CONSUMED-EVENT-GROUP-REFS" (
      /- 8591 -/ .prim k!"CONTROL-CONSUMED-EVENT-GROUP-REF" .ref k!"controlConsumedEventGroupRefs" <|
      .nil) <|
    /- 8594 -/ .wrap (.any [(k!"controlPncRefs", [])]) k!"CONTROL-PNC-REFS" (
      /- 8596 -/ .prim k!"CONTROL-PNC-REF" .ref k!"controlPncRefs" <|
      .nil) <|
    /- 8599 -/ .wrap (.any [(k!"controlProvidedEventGroupRefs", [])]) k!"CONTROL-PROVIDED-EVENT-GROUP-REFS" (
      /- 8601 -/ .prim k!"CONTROL-PROVIDED-EVENT-GROUP-REF" .ref k!"controlProvidedEventGroupRefs" <|
      .nil) <|
    /- 8602 -/ .prim k!"SERVICE-CONTROL" .lit k!"serviceControl" <|
    /- 8606 -/ .each k!"signalServiceTranslationEventProps" [] .plain [⟨[], [], k!"writeSignalServiceTranslationEventProps_SignalServiceTranslationEventProps"⟩] .skip <|
    .nil) <|
  .nil

/-- `writeSimulatedExecutionTime`, `writer/arxml_writer.py:4115-4120` -/
def writeSimulatedExecutionTime_SimulatedExecutionTime : WB :=
  /- 4116 -/ .wrap .always k!"SIMULATED-EXECUTION-TIME" (
    /- 4117 -/ writeExecutionTime_AnalyzedExecutionTime.app <|
    /- 4118 -/ .each k!"maximumExecutionTime" [] .plain [⟨[], [], k!"setMultidimensionalTime_MAXIMUM_EXECUTION_TIME_MultidimensionalTime"⟩] .skip <|
    /- 4119 -/ .each k!"minimumExecutionTime" [] .plain [⟨[], [], k!"setMultidimensionalTime_MINIMUM_EXECUTION_TIME_MultidimensionalTime"⟩] .skip <|
    /- 4120 -/ .each k!"nominalExecutionTime" [] .plain [⟨[], [], k!"setMultidimensionalTime_NOMINAL_EXECUTION_TIME_MultidimensionalTime"⟩] .skip <|
    .nil) <|
  .nil

/-- `writeSoAdConfigConnectionBundles`, `writer/arxml_writer.py:6521-6529` -/
def writeSoAdConfigConnectionBundles_SoAdConfig : WB :=
  /- 6524 -/ .wrap (.any [(k!"connectionBundles", [])]) k!"CONNECTION-BUNDLES" (
    /- 6527 -/ .each k!"connectionBundles" [] .plain [⟨[(false, [k!"SocketConnectionBundle"])], [], k!"writeSocketConnectionBundle_SocketConnectionBundle"⟩] .unsupported <|
    .nil) <|
  .nil

/-- `writeSoAdConfigSocketAddresses`, `writer/arxml_writer.py:6757-6765` -/
def writeSoAdConfigSocketAddresses_SoAdConfig : WB :=
  /- 6760 -/ .wrap (.any [(k!"socketAddresses", [])]) k!"SOCKET-ADDRESSS" (
    /- 6763 -/ .each k!"socketAddresses" [] .plain [⟨[(false, [k!"SocketAddress"])], [], k!"writeSocketAddress_SocketAddress"⟩] .unsupported <|
    .nil) <|
  .nil

/-- `writeSoAdConfig`, `writer/arxml_writer.py:6767-6771` -/
def writeSoAdConfig_SO_AD_CONFIG_SoAdConfig : WB :=
  /- 6769 -/ .wrap .always k!"SO-AD-CONFIG" (
    /- 6770 -/ writeSoAdConfigConnectionBundles_SoAdConfig.app <|
    /- 6771 -/ writeSoAdConfigSocketAddresses_SoAdConfig.app <|
    .nil) <|
  .nil

/-- `writeSoAdRoutingGroup`, `writer/arxml_writer.py:8863-8867` -/
def writeSoAdRoutingGroup_SoAdRoutingGroup : WB :=
  /- 8865 -/ .wrap .always k!"SO-AD-ROUTING-GROUP" (
    /- 8866 -/ writeIdentifiable_ARPackage.app <|
    /- 8867 -/ .prim k!"EVENT-GROUP-CONTROL-TYPE" .lit k!"eventGroupControlType" <|
    .nil) <|
  .nil

/-- `writeSocketAddressApplicationEndpointConsumedServiceInstances`, `writer/arxml_writer.py:6619-6627` -/
def writeSocketAddressApplicationEndpointConsumedServiceInstances_ApplicationEndpoint : WB :=
  /- 6622 -/ .wrap (.any [(k!"consumedServiceInstances", [])]) k!"CONSUMED-SERVICE-INSTANCES" (
    /- 6625 -/ .each k!"consumedServiceInstances" [] .plain [⟨[(false, [k!"ConsumedServiceInstance"])], [], k!"writeConsumedServiceInstance_ConsumedServiceInstance"⟩] .unsupported <|
    .nil) <|
  .nil

/-- `writeSocketAddressApplicationEndpointProvidedServiceInstance`, `writer/arxml_writer.py:6721-6729` -/
def writeSocketAddressApplicationEndpointProvidedServiceInstance_ApplicationEndpoint : WB :=
  /- 6724 -/ .wrap (.any [(k!"providedServiceInstances", [])]) k!"PROVIDED-SERVICE-INSTANCES" (
    /- 6727 -/ .each k!"providedServiceInstances" [] .plain [⟨[(false, [k!"ProvidedServiceInstance"])], [], k!"writeProvidedServiceInstance_ProvidedServiceInstance"⟩] .unsupported <|
    .nil) <|
  .nil

/-- `writeSocketAddressApplicationEndpoint`, `writer/arxml_writer.py:6731-6740` -/
def writeSocketAddressApplicationEndpoint_SocketAddress : WB :=
  /- 6734 -/ .each k!"applicationEndpoint" [] .plain [⟨[], [], k!"writeSocketAddressApplicationEndpoint_SocketAddress_L6734"⟩] .skip <|
  .nil

/-- `writeSocketAddressApplicationEndpoint`, `writer/arxml_writer.py:6731-6740` (the block at line 6734) -/
def writeSocketAddressApplicationEndpoint_SocketAddress_L6734 : WB :=
  /- 6734 -/ .wrap .always k!"APPLICATION-ENDPOINT" (
    /- 6735 -/ writeIdentifiable_ARPackage.app <|
    /- 6736 -/ writeSocketAddressApplicationEndpointConsumedServiceInstances_ApplicationEndpoint.app <|
    /- 6737 -/ .prim k!"NETWORK-ENDPOINT-REF" .ref k!"networkEndpointRef" <|
    /- 6738 -/ .prim k!"PRIORITY" .numerical k!"priority" <|
    /- 6739 -/ writeSocketAddressApplicationEndpointProvidedServiceInstance_ApplicationEndpoint.app <|
    /- 6557 -/ .wrap (.any [(k!"tpConfiguration", [])]) k!"TP-CONFIGURATION" (
      /- 6559 -/ .each k!"tpConfiguration" [] .plain [⟨[(false, [k!"UdpTp"])], [], k!"writeUdpTp_UdpTp"⟩,
        ⟨[(false, [k!"TcpTp"])], [k!"UdpTp"], k!"writeTcpTp_TcpTp"⟩,
        ⟨[(false, [k!"GenericTp"])], [k!"UdpTp", k!"TcpTp"], k!"writeGenericTp_GenericTp"⟩] .unsupported <|
      .nil) <|
    .nil) <|
  .nil

/-- `writeSocketAddressMulticastConnectorRefs`, `writer/arxml_writer.py:6742-6747` -/
def writeSocketAddressMulticastConnectorRefs_SocketAddress : WB :=
  /- 6745 -/ .wrap (.any [(k!"multicastConnectorRefs", [])]) k!"MULTICAST-CONNECTOR-REFS" (
    /- 6747 -/ .prim k!"MULTICAST-CONNECTOR-REF" .ref k!"multicastConnectorRefs" <|
    .nil) <|
  .nil

/-- `writeSocketAddress`, `writer/arxml_writer.py:6749-6755` -/
def writeSocketAddress_SocketAddress : WB :=
  /- 6750 -/ .wrap .always k!"SOCKET-ADDRESS" (
    /- 6751 -/ writeIdentifiable_ARPackage.app <|
    /- 6752 -/ writeSocketAddressApplicationEndpoint_SocketAddress.app <|
    /- 6753 -/ writeSocketAddressMulticastConnectorRefs_SocketAddress.app <|
    /- 6754 -/ .prim k!"CONNECTOR-REF" .ref k!"connectorRef" <|
    /- 6755 -/ .prim k!"PORT-ADDRESS" .numerical k!"portAddress" <|
    .nil) <|
  .nil

/-- `writeSocketConnectionBundleConnections`, `writer/arxml_writer.py:6504-6512` -/
def writeSocketConnectionBundleConnections_SocketConnectionBundle : WB :=
  /- 6507 -/ .wrap (.any [(k!"bundledConnections", [])]) k!"BUNDLED-CONNECTIONS" (
    /- 6510 -/ .each k!"bundledConnections" [] .plain [⟨[(false, [k!"SocketConnection"])], [], k!"setSocketConnection_SocketConnection"⟩] .unsupported <|
    .nil) <|
  .nil

/-- `writeSocketConnectionBundle`, `writer/arxml_writer.py:6514-6519` -/
def writeSocketConnectionBundle_SocketConnectionBundle : WB :=
  /- 6516 -/ .wrap .always k!"SOCKET-CONNECTION-BUNDLE" (
    /- 6517 -/ writeReferrable_ARPackage.app <|
    /- 6518 -/ writeSocketConnectionBundleConnections_SocketConnectionBundle.app <|
    /- 6519 -/ .prim k!"SERVER-PORT-REF" .ref k!"serverPortRef" <|
    .nil) <|
  .nil

/-- `writeStaticPart`, `writer/arxml_writer.py:8774-8777` -/
def writeStaticPart_StaticPart : WB :=
  /- 8775 -/ .wrap .always k!"STATIC-PART" (
    /- 8776 -/ writeMultiplexedPart_MultiplexedPart.app <|
    /- 8777 -/ .prim k!"I-PDU-REF" .ref k!"iPduRef" <|
    .nil) <|
  .nil

/-- `writeSupervisedEntityNeeds`, `writer/arxml_writer.py:3751-3765` -/
def writeSupervisedEntityNeeds_SupervisedEntityNeeds : WB :=
  /- 3752 -/ .wrap .always k!"SUPERVISED-ENTITY-NEEDS" (
    /- 3753 -/ writeARElement_System.app <|
    /- 3754 -/ .prim k!"ACTIVATE-AT-START" .lit k!"activateAtStart" <|
    /- 3757 -/ .wrap (.any [(k!"checkpointsRefs", [])]) k!"CHECKPOINTSS" (
      /- 3760 -/ .oprim k!"SUPERVISED-ENTITY-CHECKPOINT-NEEDS-REF-CONDITIONAL" k!"SUPERVISED-ENTITY-CHECKPOINT-NEEDS-REF" .ref k!"checkpointsRefs" <|
      .nil) <|
    /- 3761 -/ .prim k!"ENABLE-DEACTIVATION" .lit k!"enableDeactivation" <|
    /- 3762 -/ .prim k!"EXPECTED-ALIVE-CYCLE" .lit k!"expectedAliveCycle" <|
    /- 3763 -/ .prim k!"MAX-ALIVE-CYCLE" .lit k!"maxAliveCycle" <|
    /- 3764 -/ .prim k!"MIN-ALIVE-CYCLE" .lit k!"minAliveCycle" <|
    /- 3765 -/ .prim k!"TOLERATED-FAILED-CYCLES" .numerical k!"toleratedFailedCycles" <|
    .nil) <|
  .nil

/-- `writeSwAddrMethod`, `writer/arxml_writer.py:5568-5579` -/
def writeSwAddrMethod_SwAddrMethod : WB :=
  /- 5570 -/ .wrap .always k!"SW-ADDR-METHOD" (
    /- 5571 -/ writeIdentifiable_ARPackage.app <|
    /- 5572 -/ .prim k!"MEMORY-ALLOCATION-KEYWORD-POLICY" .lit k!"memoryAllocationKeywordPolicy" <|
    /- 5575 -/ .wrap (.any [(k!"options", [])]) k!"OPTIONS" (
      /- 5577 -/ .prim k!"OPTION" .lit k!"options" <|
      .nil) <|
    /- 5578 -/ .prim k!"SECTION-INITIALIZATION-POLICY" .lit k!"sectionInitializationPolicy" <|
    /- 5579 -/ .prim k!"SECTION-TYPE" .lit k!"sectionType" <|
    .nil) <|
  .nil

/-- `writeSwBaseType`, `writer/arxml_writer.py:2247-2250` -/
def writeSwBaseType_SwBaseType : WB :=
  /- 2248 -/ .wrap .always k!"SW-BASE-TYPE" (
    /- 2249 -/ writeIdentifiable_ARPackage.app <|
    /- 2241 -/ .prim k!"BASE-TYPE-SIZE" .numerical k!"baseTypeDefinition.baseTypeSize" <|
    /- 2242 -/ .prim k!"BASE-TYPE-ENCODING" .lit k!"baseTypeDefinition.baseTypeEncoding" <|
    /- 2243 -/ .prim k!"MEM-ALIGNMENT" .numerical k!"baseTypeDefinition.memAlignment" <|
    /- 2244 -/ .prim k!"BYTE-ORDER" .lit k!"baseTypeDefinition.byteOrder" <|
    /- 2245 -/ .prim k!"NATIVE-DECLARATION" .lit k!"baseTypeDefinition.nativeDeclaration" <|
    .nil) <|
  .nil

/-- `writeSwComponentPrototype`, `writer/arxml_writer.py:1669-1672` -/
def writeSwComponentPrototype_SwComponentPrototype : WB :=
  /- 1670 -/ .wrap .always k!"SW-COMPONENT-PROTOTYPE" (
    /- 1671 -/ writeIdentifiable_ARPackage.app <|
    /- 1672 -/ .prim k!"TYPE-TREF" .ref k!"typeTRef" <|
    .nil) <|
  .nil

/-- `writeSwRecordLayout`, `writer/arxml_writer.py:5562-5566` -/
def writeSwRecordLayout_SwRecordLayout : WB :=
  /- 5564 -/ .wrap .always k!"SW-RECORD-LAYOUT" (
    /- 5565 -/ writeIdentifiable_ARPackage.app <|
    /- 5566 -/ .each k!"swRecordLayoutGroup" [] .plain [⟨[], [], k!"setSwRecordLayoutGroup_SW_RECORD_LAYOUT_GROUP_SwRecordLayoutGroup"⟩] .skip <|
    .nil) <|
  .nil

/-- `writeSwSystemconstValue`, `writer/arxml_writer.py:8377-8381` -/
def writeSwSystemconstValue_SwSystemconstValue : WB :=
  /- 8378 -/ .wrap .always k!"SW-SYSTEMCONST-VALUE" (
    /- 2017 -/ .wrap (.any [(k!"annotations", [])]) k!"ANNOTATIONS" (
      /- 2019 -/ .each k!"annotations" [] .plain [⟨[], [], k!"writeIdentifiable_ARPackage_L2019"⟩] .skip <|
      .nil) <|
    /- 8380 -/ .prim k!"SW-SYSTEMCONST-REF" .ref k!"swSystemconstRef" <|
    /- 8381 -/ .prim k!"VALUE" .numerical k!"value" <|
    .nil) <|
  .nil

/-- `writeSwSystemconst`, `writer/arxml_writer.py:8371-8375` -/
def writeSwSystemconst_SwSystemconst : WB :=
  /- 8373 -/ .wrap .always k!"SW-SYSTEMCONST" (
    /- 8374 -/ writeIdentifiable_ARPackage.app <|
    /- 8375 -/ .each k!"swDataDefProps" [] .plain [⟨[], [], k!"setSwDataDefProps_SW_DATA_DEF_PROPS_SwDataDefProps"⟩] .skip <|
    .nil) <|
  .nil

/-- `writeSwSystemconstantValueSetSwSystemconstantValues`, `writer/arxml_writer.py:8383-8388` -/
def writeSwSystemconstantValueSetSwSystemconstantValues_SwSystemconstantValueSet : WB :=
  /- 8386 -/ .wrap (.any [(k!"swSystemconstantValues", [])]) k!"SW-SYSTEMCONSTANT-VALUES" (
    /- 8388 -/ .each k!"swSystemconstantValues" [] .plain [⟨[], [], k!"writeSwSystemconstValue_SwSystemconstValue"⟩] .skip <|
    .nil) <|
  .nil

/-- `writeSwSystemconstantValueSet`, `writer/arxml_writer.py:8390-8394` -/
def writeSwSystemconstantValueSet_SwSystemconstantValueSet : WB :=
  /- 8392 -/ .wrap .always k!"SW-SYSTEMCONSTANT-VALUE-SET" (
    /- 8393 -/ writeIdentifiable_ARPackage.app <|
    /- 8394 -/ writeSwSystemconstantValueSetSwSystemconstantValues_SwSystemconstantValueSet.app <|
    .nil) <|
  .nil

/-- `writeSwValueCont`, `writer/arxml_writer.py:1195-1201` -/
def writeSwValueCont_SwValueCont : WB :=
  /- 1197 -/ .wrap .always k!"SW-VALUE-CONT" (
    /- 1198 -/ .attr k!"T" .raw k!"timestamp" <|
    /- 1198 -/ .attr k!"UUID" .raw k!"uuid" <|
    /- 1199 -/ .prim k!"UNIT-REF" .ref k!"unitRef" <|
    /- 1200 -/ .each k!"swArraysize" [] .plain [⟨[], [], k!"setValueList_SW_ARRAYSIZE_ValueList"⟩] .skip <|
    /- 1201 -/ .each k!"swValuesPhys" [] .plain [⟨[], [], k!"setSwValues_SW_VALUES_PHYS_SwValues"⟩] .skip <|
    .nil) <|
  .nil

/-- `writeSwcBswRunnableMappings`, `writer/arxml_writer.py:5249-5257` -/
def writeSwcBswRunnableMappings_SwcBswMapping : WB :=
  /- 5252 -/ .wrap (.any [(k!"runnableMappings", [])]) k!"RUNNABLE-MAPPINGS" (
    /- 5255 -/ .each k!"runnableMappings" [] .plain [⟨[(false, [k!"SwcBswRunnableMapping"])], [], k!"setSwcBswRunnableMapping_SwcBswRunnableMapping"⟩] .unsupported <|
    .nil) <|
  .nil

/-- `writeSwcBswSynchronizedModeGroups`, `writer/arxml_writer.py:5264-5272` -/
def writeSwcBswSynchronizedModeGroups_SwcBswMapping : WB :=
  /- 5267 -/ .wrap (.any [(k!"synchronizedModeGroups", [])]) k!"SYNCHRONIZED-MODE-GROUPS" (
    /- 5270 -/ .each k!"synchronizedModeGroups" [] .plain [⟨[(false, [k!"SwcBswSynchronizedModeGroupPrototype"])], [], k!"writeSwcBswSynchronizedModeGroupPrototype_SwcBswSynchronizedModeGroupPrototype"⟩] .unsupported <|
    .nil) <|
  .nil

/-- `writeSwcBswSynchronizedTriggers`, `writer/arxml_writer.py:5279-5287` -/
def writeSwcBswSynchronizedTriggers_SwcBswMapping : WB :=
  /- 5282 -/ .wrap (.any [(k!"synchronizedTriggers", [])]) k!"SYNCHRONIZED-TRIGGERS" (
    /- 5285 -/ .each k!"synchronizedTriggers" [] .plain [⟨[(false, [k!"SwcBswSynchronizedTrigger"])], [], k!"writeSwcBswSynchronizedTrigger_SwcBswSynchronizedTrigger"⟩] .unsupported <|
    .nil) <|
  .nil

/-- `writeSwcBswMapping`, `writer/arxml_writer.py:5289-5297` -/
def writeSwcBswMapping_SwcBswMapping : WB :=
  /- 5291 -/ .wrap .always k!"SWC-BSW-MAPPING" (
    /- 5292 -/ writeIdentifiable_ARPackage.app <|
    /- 5293 -/ .prim k!"BSW-BEHAVIOR-REF" .ref k!"bswBehaviorRef" <|
    /- 5294 -/ writeSwcBswRunnableMappings_SwcBswMapping.app <|
    /- 5295 -/ writeSwcBswSynchronizedModeGroups_SwcBswMapping.app <|
    /- 5296 -/ writeSwcBswSynchronizedTriggers_SwcBswMapping.app <|
    /- 5297 -/ .prim k!"SWC-BEHAVIOR-REF" .ref k!"swcBehaviorRef" <|
    .nil) <|
  .nil

/-- `writeSwcBswSynchronizedModeGroupPrototype`, `writer/arxml_writer.py:5259-5262` -/
def writeSwcBswSynchronizedModeGroupPrototype_SwcBswSynchronizedModeGroupPrototype : WB :=
  /- 5260 -/ .wrap .always k!"SWC-BSW-SYNCHRONIZED-MODE-GROUP-PROTOTYPE" (
    /- 5261 -/ .prim k!"BSW-MODE-GROUP-REF" .ref k!"bswModeGroupRef" <|
    /- 5262 -/ .each k!"swcModeGroupIRef" [] .plain [⟨[], [], k!"setPModeGroupInAtomicSwcInstanceRef_SWC_MODE_GROUP_IREF_PModeGroupInAtomicSwcInstanceRef"⟩] .skip <|
    .nil) <|
  .nil

/-- `writeSwcBswSynchronizedTrigger`, `writer/arxml_writer.py:5274-5277` -/
def writeSwcBswSynchronizedTrigger_SwcBswSynchronizedTrigger : WB :=
  /- 5275 -/ .wrap .always k!"SWC-BSW-SYNCHRONIZED-TRIGGER" (
    /- 5276 -/ .prim k!"BSW-TRIGGER-REF" .ref k!"bswTriggerRef" <|
    /- 5277 -/ .each k!"swcTriggerIRef" [] .plain [⟨[], [], k!"writePTriggerInAtomicSwcTypeInstanceRef_SWC_TRIGGER_IREF_PTriggerInAtomicSwcTypeInstanceRef"⟩] .skip <|
    .nil) <|
  .nil

/-- `writeSwcImplementation`, `writer/arxml_writer.py:4554-4558` -/
def writeSwcImplementation_SwcImplementation : WB :=
  /- 4556 -/ .wrap .always k!"SWC-IMPLEMENTATION" (
    /- 4557 -/ writeImplementation_Implementation.app <|
    /- 4558 -/ .prim k!"BEHAVIOR-REF" .ref k!"behaviorRef" <|
    .nil) <|
  .nil

/-- `writeSwcInternalBehaviorArTypedPerInstanceMemories`, `writer/arxml_writer.py:3208-3216` -/
def writeSwcInternalBehaviorArTypedPerInstanceMemories_SwcInternalBehavior : WB :=
  /- 3211 -/ .wrap (.any [(k!"arTypedPerInstanceMemories", [])]) k!"AR-TYPED-PER-INSTANCE-MEMORYS" (
    /- 3214 -/ .each k!"arTypedPerInstanceMemories" [] .plain [⟨[(false, [k!"VariableDataPrototype"])], [], k!"writeVariableDataPrototype_VariableDataPrototype"⟩] .unsupported <|
    .nil) <|
  .nil

/-- `writeSwcInternalBehaviorEvents`, `writer/arxml_writer.py:2637-2664` -/
def writeSwcInternalBehaviorEvents_SwcInternalBehavior : WB :=
  /- 2640 -/ .wrap (.any [(k!"elements", [k!"RTEEvent"])]) k!"EVENTS" (
    /- 2644 -/ .each k!"elements" [k!"RTEEvent"] .sorted [⟨[(false, [k!"TimingEvent"])], [], k!"writeTimingEvent_TimingEvent"⟩,
      ⟨[(false, [k!"OperationInvokedEvent"])], [k!"TimingEvent"], k!"writeOperationInvokedEvent_OperationInvokedEvent"⟩,
      ⟨[(false, [k!"SwcModeSwitchEvent"])], [k!"TimingEvent", k!"OperationInvokedEvent"], k!"writeSwcModeSwitchEvent_SwcModeSwitchEvent"⟩,
      ⟨[(false, [k!"DataReceivedEvent"])], [k!"TimingEvent", k!"OperationInvokedEvent", k!"SwcModeSwitchEvent"], k!"writeDataReceivedEvent_DataReceivedEvent"⟩,
      ⟨[(false, [k!"InternalTriggerOccurredEvent"])], [k!"TimingEvent", k!"OperationInvokedEvent", k!"SwcModeSwitchEvent", k!"DataReceivedEvent"], k!"writeTriggerInterface_TriggerInterface"⟩,
      ⟨[(false, [k!"InitEvent"])], [k!"TimingEvent", k!"OperationInvokedEvent", k!"SwcModeSwitchEvent", k!"DataReceivedEvent", k!"InternalTriggerOccurredEvent"], k!"writeInitEvent_InitEvent"⟩,
      ⟨[(false, [k!"AsynchronousServerCallReturnsEvent"])], [k!"TimingEvent", k!"OperationInvokedEvent", k!"SwcModeSwitchEvent", k!"DataReceivedEvent", k!"InternalTriggerOccurredEvent", k!"InitEvent"], k!"writeAsynchronousServerCallReturnsEvent_AsynchronousServerCallReturnsEvent"⟩,
      ⟨[(false, [k!"ModeSwitchedAckEvent"])], [k!"TimingEvent", k!"OperationInvokedEvent", k!"SwcModeSwitchEvent", k!"DataReceivedEvent", k!"InternalTriggerOccurredEvent", k!"InitEvent", k!"AsynchronousServerCallReturnsEvent"], k!"writeModeSwitchedAckEvent_ModeSwitchedAckEvent"⟩,
      ⟨[(false, [k!"BackgroundEvent"])], [k!"TimingEvent", k!"OperationInvokedEvent", k!"SwcModeSwitchEvent", k!"DataReceivedEvent", k!"InternalTriggerOccurredEvent", k!"InitEvent", k!"AsynchronousServerCallReturnsEvent", k!"ModeSwitchedAckEvent"], k!"writeBackgroundEvent_BackgroundEvent"⟩,
      ⟨[(false, [k!"DataSendCompletedEvent"])], [k!"TimingEvent", k!"OperationInvokedEvent", k!"SwcModeSwitchEvent", k!"DataReceivedEvent", k!"InternalTriggerOccurredEvent", k!"InitEvent", k!"AsynchronousServerCallReturnsEvent", k!"ModeSwitchedAckEvent", k!"BackgroundEvent"], k!"writeDataSendCompletedEvent_DataSendCompletedEvent"⟩] .unsupported <|
    .nil) <|
  .nil

/-- `writeSwcInternalBehaviorExclusiveAreaPolicies`, `writer/arxml_writer.py:3928-3936` -/
def writeSwcInternalBehaviorExclusiveAreaPolicies_SwcInternalBehavior : WB :=
  /- 3931 -/ .wrap (.any [(k!"exclusiveAreaPolicies", [])]) k!"EXCLUSIVE-AREA-POLICYS" (
    /- 3934 -/ .each k!"exclusiveAreaPolicies" [] .plain [⟨[(false, [k!"SwcExclusiveAreaPolicy"])], [], k!"writeSwcInternalBehaviorExclusiveAreaPolicies_SwcInternalBehavior_L3934"⟩] .skip <|
    .nil) <|
  .nil

/-- `writeSwcInternalBehaviorExclusiveAreaPolicies`, `writer/arxml_writer.py:3928-3936` (the block at line 3934) -/
def writeSwcInternalBehaviorExclusiveAreaPolicies_SwcInternalBehavior_L3934 : WB :=
  /- 3934 -/ .wrap .always k!"SWC-EXCLUSIVE-AREA-POLICY" (
    /- 3935 -/ .prim k!"API-PRINCIPLE" .lit k!"apiPrinciple" <|
    /- 3936 -/ .prim k!"EXCLUSIVE-AREA-REF" .ref k!"exclusiveAreaRef" <|
    .nil) <|
  .nil

/-- `writeSwcInternalBehaviorExplicitInterRunnableVariables`, `writer/arxml_writer.py:3218-3226` -/
def writeSwcInternalBehaviorExplicitInterRunnableVariables_SwcInternalBehavior : WB :=
  /- 3221 -/ .wrap (.any [(k!"explicitInterRunnableVariables", [])]) k!"EXPLICIT-INTER-RUNNABLE-VARIABLES" (
    /- 3224 -/ .each k!"explicitInterRunnableVariables" [] .plain [⟨[(false, [k!"VariableDataPrototype"])], [], k!"writeVariableDataPrototype_VariableDataPrototype"⟩] .unsupported <|
    .nil) <|
  .nil

/-- `writeSwcInternalBehaviorIncludedModeDeclarationGroupSets`, `writer/arxml_writer.py:3918-3926` -/
def writeSwcInternalBehaviorIncludedModeDeclarationGroupSets_SwcInternalBehavior : WB :=
  /- 3921 -/ .wrap (.any [(k!"includedModeDeclarationGroupSets", [])]) k!"INCLUDED-MODE-DECLARATION-GROUP-SETS" (
    /- 3924 -/ .each k!"includedModeDeclarationGroupSets" [] .plain [⟨[(false, [k!"IncludedModeDeclarationGroupSet"])], [], k!"writeIncludedModeDeclarationGroupSet_IncludedModeDeclarationGroupSet"⟩] .unsupported <|
    .nil) <|
  .nil

/-- `writeSwcInternalBehaviorInstantiationDataDefProps`, `writer/arxml_writer.py:3938-3949` -/
def writeSwcInternalBehaviorInstantiationDataDefProps_SwcInternalBehavior : WB :=
  /- 3941 -/ .wrap (.any [(k!"instantiationDataDefProps", [])]) k!"INSTANTIATION-DATA-DEF-PROPSS" (
    /- 3944 -/ .each k!"instantiationDataDefProps" [] .plain [⟨[(false, [k!"InstantiationDataDefProps"])], [], k!"writeNvBlockDescriptor_NvBlockDescriptor_L2773"⟩] .unsupported <|
    .nil) <|
  .nil

/-- `writeSwcInternalBehaviorPerInstanceMemories`, `writer/arxml_writer.py:3228-3238` -/
def writeSwcInternalBehaviorPerInstanceMemories_SwcInternalBehavior : WB :=
  /- 3231 -/ .wrap (.any [(k!"perInstanceMemories", [])]) k!"PER-INSTANCE-MEMORYS" (
    /- 3233 -/ .each k!"perInstanceMemories" [] .plain [⟨[], [], k!"writeSwcInternalBehaviorPerInstanceMemories_SwcInternalBehavior_L3233"⟩] .skip <|
    .nil) <|
  .nil

/-- `writeSwcInternalBehaviorPerInstanceMemories`, `writer/arxml_writer.py:3228-3238` (the block at line 3233) -/
def writeSwcInternalBehaviorPerInstanceMemories_SwcInternalBehavior_L3233 : WB :=
  /- 3233 -/ .wrap .always k!"PER-INSTANCE-MEMORY" (
    /- 3234 -/ writeIdentifiable_ARPackage.app <|
    /- 3235 -/ .prim k!"INIT-VALUE" .lit k!"initValue" <|
    /- 3236 -/ .each k!"swDataDefProps" [] .plain [⟨[], [], k!"setSwDataDefProps_SW_DATA_DEF_PROPS_SwDataDefProps"⟩] .skip <|
    /- 3237 -/ .prim k!"TYPE" .lit k!"type" <|
    /- 3238 -/ .prim k!"TYPE-DEFINITION" .lit k!"typeDefinition" <|
    .nil) <|
  .nil

/-- `writeSwcInternalBehaviorPortAPIOptions`, `writer/arxml_writer.py:3318-3328` -/
def writeSwcInternalBehaviorPortAPIOptions_SwcInternalBehavior : WB :=
  /- 3321 -/ .wrap (.any [(k!"portAPIOptions", [])]) k!"PORT-API-OPTIONS" (
    /- 3323 -/ .each k!"portAPIOptions" [] .plain [⟨[], [], k!"writeSwcInternalBehaviorPortAPIOptions_SwcInternalBehavior_L3323"⟩] .skip <|
    .nil) <|
  .nil

/-- `writeSwcInternalBehaviorPortAPIOptions`, `writer/arxml_writer.py:3318-3328` (the block at line 3313) -/
def writeSwcInternalBehaviorPortAPIOptions_SwcInternalBehavior_L3313 : WB :=
  /- 3313 -/ .wrap .always k!"PORT-DEFINED-ARGUMENT-VALUE" (
    /- 1251 -/ .wrap (.any [(k!"value", [])]) k!"VALUE" (
      /- 1253 -/ .each k!"value" [] .plain [⟨[(false, [k!"ApplicationValueSpecification"])], [], k!"writeApplicationValueSpecification_ApplicationValueSpecification"⟩,
        ⟨[(false, [k!"ApplicationRuleBasedValueSpecification"])], [k!"ApplicationValueSpecification"], k!"writeApplicationRuleBasedValueSpecification_ApplicationRuleBasedValueSpecification"⟩,
        ⟨[(false, [k!"CompositeRuleBasedValueSpecification"])], [k!"ApplicationValueSpecification", k!"ApplicationRuleBasedValueSpecification"], k!"writeCompositeRuleBasedValueSpecification_CompositeRuleBasedValueSpecification"⟩,
        ⟨[(false, [k!"TextValueSpecification"])], [k!"ApplicationValueSpecification", k!"ApplicationRuleBasedValueSpecification", k!"CompositeRuleBasedValueSpecification"], k!"writeTextValueSpecification_TextValueSpecification"⟩,
        ⟨[(false, [k!"ConstantReference"])], [k!"ApplicationValueSpecification", k!"ApplicationRuleBasedValueSpecification", k!"CompositeRuleBasedValueSpecification", k!"TextValueSpecification"], k!"setConstantReference_ConstantReference"⟩,
        ⟨[(false, [k!"NumericalValueSpecification"])], [k!"ApplicationValueSpecification", k!"ApplicationRuleBasedValueSpecification", k!"CompositeRuleBasedValueSpecification", k!"TextValueSpecification", k!"ConstantReference"], k!"writeNumericalValueSpecification_NumericalValueSpecification"⟩,
        ⟨[(false, [k!"ArrayValueSpecification"])], [k!"ApplicationValueSpecification", k!"ApplicationRuleBasedValueSpecification", k!"CompositeRuleBasedValueSpecification", k!"TextValueSpecification", k!"ConstantReference", k!"NumericalValueSpecification"], k!"writeArrayValueSpecification_ArrayValueSpecification"⟩,
        ⟨[(false, [k!"RecordValueSpecification"])], [k!"ApplicationValueSpecification", k!"ApplicationRuleBasedValueSpecification", k!"CompositeRuleBasedValueSpecification", k!"TextValueSpecification", k!"ConstantReference", k!"NumericalValueSpecification", k!"ArrayValueSpecification"], k!"writeRecordValueSpecification_RecordValueSpecification"⟩] .unsupported <|
      .nil) <|
    /- 3316 -/ .prim k!"VALUE-TYPE-TREF" .ref k!"valueTypeTRef" <|
    .nil) <|
  .nil

/-- `writeSwcInternalBehaviorPortAPIOptions`, `writer/arxml_writer.py:3318-3328` (the block at line 3323) -/
def writeSwcInternalBehaviorPortAPIOptions_SwcInternalBehavior_L3323 : WB :=
  /- 3323 -/ .wrap .always k!"PORT-API-OPTION" (
    /- 3324 -/ .prim k!"ENABLE-TAKE-ADDRESS" .lit k!"enableTakeAddress" <|
    /- 3325 -/ .prim k!"ERROR-HANDLING" .lit k!"errorHandling" <|
    /- 3326 -/ .prim k!"INDIRECT-API" .lit k!"indirectAPI" <|
    /- 3311 -/ .wrap (.any [(k!"portArgValues", [])]) k!"PORT-ARG-VALUES" (
      /- 3313 -/ .each k!"portArgValues" [] .nested [⟨[], [], k!"writeSwcInternalBehaviorPortAPIOptions_SwcInternalBehavior_L3313"⟩] .skip <|
      .nil) <|
    /- 3328 -/ .prim k!"PORT-REF" .ref k!"portRef" <|
    .nil) <|
  .nil

/-- `writeSwcInternalBehaviorRunnables`, `writer/arxml_writer.py:3198-3206` -/
def writeSwcInternalBehaviorRunnables_SwcInternalBehavior : WB :=
  /- 3201 -/ .wrap (.any [(k!"elements", [k!"RunnableEntity"])]) k!"RUNNABLES" (
    /- 3204 -/ .each k!"elements" [k!"RunnableEntity"] .sorted [⟨[(false, [k!"RunnableEntity"])], [], k!"writeRunnableEntity_RunnableEntity"⟩] .unsupported <|
    .nil) <|
  .nil

/-- `writeSwcInternalBehaviorServiceDependencies`, `writer/arxml_writer.py:3885-3893` -/
def writeSwcInternalBehaviorServiceDependencies_SwcInternalBehavior : WB :=
  /- 3888 -/ .wrap (.any [(k!"elements", [k!"SwcServiceDependency"])]) k!"SERVICE-DEPENDENCYS" (
    /- 3891 -/ .each k!"elements" [k!"SwcServiceDependency"] .sorted [⟨[(false, [k!"SwcServiceDependency"])], [], k!"writeSwcServiceDependency_SwcServiceDependency"⟩] .unsupported <|
    .nil) <|
  .nil

/-- `writeSwcInternalBehaviorVariationPointProxies`, `writer/arxml_writer.py:3302-3307` -/
def writeSwcInternalBehaviorVariationPointProxies_SwcInternalBehavior : WB :=
  /- 3305 -/ .wrap (.any [(k!"variationPointProxies", [])]) k!"VARIATION-POINT-PROXYS" (
    /- 3307 -/ .each k!"variationPointProxies" [] .plain [⟨[], [], k!"writeVariationPointProxy_VariationPointProxy"⟩] .skip <|
    .nil) <|
  .nil

/-- `writeSwcInternalBehavior`, `writer/arxml_writer.py:3951-3971` -/
def writeSwcInternalBehavior_SwcInternalBehavior : WB :=
  /- 3953 -/ .wrap .always k!"SWC-INTERNAL-BEHAVIOR" (
    /- 3954 -/ writeInternalBehavior_InternalBehavior.app <|
    /- 3956 -/ writeSwcInternalBehaviorArTypedPerInstanceMemories_SwcInternalBehavior.app <|
    /- 3957 -/ writeSwcInternalBehaviorExclusiveAreaPolicies_SwcInternalBehavior.app <|
    /- 3958 -/ writeSwcInternalBehaviorEvents_SwcInternalBehavior.app <|
    /- 3959 -/ writeSwcInternalBehaviorExplicitInterRunnableVariables_SwcInternalBehavior.app <|
    /- 3960 -/ .prim k!"HANDLE-TERMINATION-AND-RESTART" .lit k!"handleTerminationAndRestart" <|
    /- 3897 -/ .wrap (.any [(k!"includedDataTypeSets", [])]) k!"INCLUDED-DATA-TYPE-SETS" (
      /- 3899 -/ .each k!"includedDataTypeSets" [] .plain [⟨[], [], k!"writeSwcInternalBehavior_SwcInternalBehavior_L3899"⟩] .skip <|
      .nil) <|
    /- 3962 -/ writeSwcInternalBehaviorIncludedModeDeclarationGroupSets_SwcInternalBehavior.app <|
    /- 3963 -/ writeSwcInternalBehaviorInstantiationDataDefProps_SwcInternalBehavior.app <|
    /- 3964 -/ writeSwcInternalBehaviorPerInstanceMemories_SwcInternalBehavior.app <|
    /- 3247 -/ .wrap (.any [(k!"perInstanceParameters", [])]) k!"PER-INSTANCE-PARAMETERS" (
      /- 3249 -/ .each k!"perInstanceParameters" [] .plain [⟨[], [], k!"writeParameterDataPrototype_ParameterDataPrototype"⟩] .skip <|
      .nil) <|
    /- 3966 -/ writeSwcInternalBehaviorPortAPIOptions_SwcInternalBehavior.app <|
    /- 3967 -/ writeSwcInternalBehaviorRunnables_SwcInternalBehavior.app <|
    /- 3968 -/ writeSwcInternalBehaviorServiceDependencies_SwcInternalBehavior.app <|
    /- 3247 -/ .wrap (.any [(k!"sharedParameters", [])]) k!"SHARED-PARAMETERS" (
      /- 3249 -/ .each k!"sharedParameters" [] .plain [⟨[], [], k!"writeParameterDataPrototype_ParameterDataPrototype"⟩] .skip <|
      .nil) <|
    /- 3970 -/ writeSwcInternalBehaviorVariationPointProxies_SwcInternalBehavior.app <|
    /- 3971 -/ .prim k!"SUPPORTS-MULTIPLE-INSTANTIATION" .lit k!"supportsMultipleInstantiation" <|
    .nil) <|
  .nil

/-- `writeSwcInternalBehavior`, `writer/arxml_writer.py:3951-3971` (the block at line 3899) -/
def writeSwcInternalBehavior_SwcInternalBehavior_L3899 : WB :=
  /- 3899 -/ .wrap .always k!"INCLUDED-DATA-TYPE-SET" (
    /- 3900 -/ .attr k!"T" .raw k!"timestamp" <|
    /- 3900 -/ .attr k!"UUID" .raw k!"uuid" <|
    /- 3901 -/ .prim k!"LITERAL-PREFIX" .lit k!"literalPrefix" <|
    /- 3904 -/ .wrap (.any [(k!"dataTypeRefs", [])]) k!"DATA-TYPE-REFS" (
      /- 3906 -/ .prim k!"DATA-TYPE-REF" .ref k!"dataTypeRefs" <|
      .nil) <|
    .nil) <|
  .nil

/-- `writeSwcModeSwitchEvent`, `writer/arxml_writer.py:2583-2592` -/
def writeSwcModeSwitchEvent_SwcModeSwitchEvent : WB :=
  /- 2585 -/ .wrap .always k!"SWC-MODE-SWITCH-EVENT" (
    /- 2586 -/ setRTEEvent_RTEEvent.app <|
    /- 2587 -/ .prim k!"ACTIVATION" .lit k!"activation" <|
    /- 2590 -/ .wrap (.any [(k!"modeIRefs", [])]) k!"MODE-IREFS" (
      /- 2592 -/ .each k!"modeIRefs" [] .plain [⟨[], [], k!"setRModeInAtomicSwcInstanceRef_MODE_IREF_RModeInAtomicSwcInstanceRef"⟩] .skip <|
      .nil) <|
    .nil) <|
  .nil

/-- `writeSwcServiceDependencyAssignedPorts`, `writer/arxml_writer.py:3500-3508` -/
def writeSwcServiceDependencyAssignedPorts_SwcServiceDependency : WB :=
  /- 3503 -/ .wrap (.any [(k!"assignedPort", [])]) k!"ASSIGNED-PORTS" (
    /- 3506 -/ .each k!"assignedPort" [] .plain [⟨[(false, [k!"RoleBasedPortAssignment"])], [], k!"writeRoleBasedPortAssignment_RoleBasedPortAssignment"⟩] .unsupported <|
    .nil) <|
  .nil

/-- `writeSwcServiceDependencyRepresentedPortGroup`, `writer/arxml_writer.py:3874-3875` -/
def writeSwcServiceDependencyRepresentedPortGroup_SwcServiceDependency : WB :=
  /- 3875 -/ .prim k!"REPRESENTED-PORT-GROUP-REF" .ref k!"representedPortGroup" <|
  .nil

/-- `writeSwcServiceDependencyServiceNeeds`, `writer/arxml_writer.py:3810-3872` -/
def writeSwcServiceDependencyServiceNeeds_SwcServiceDependency : WB :=
  /- 3813 -/ .wrap (.any [(k!"elements", [k!"ServiceNeeds"])]) k!"SERVICE-NEEDS" (
    /- 3816 -/ .each k!"elements" [k!"ServiceNeeds"] .sorted [⟨[(false, [k!"NvBlockNeeds"])], [], k!"writeNvBlockNeeds_NvBlockNeeds"⟩,
      ⟨[(false, [k!"DiagnosticCommunicationManagerNeeds"])], [k!"NvBlockNeeds"], k!"writeDiagnosticCommunicationManagerNeeds_DiagnosticCommunicationManagerNeeds"⟩,
      ⟨[(false, [k!"DiagnosticRoutineNeeds"])], [k!"NvBlockNeeds", k!"DiagnosticCommunicationManagerNeeds"], k!"writeDiagnosticRoutineNeeds_DiagnosticRoutineNeeds"⟩,
      ⟨[(false, [k!"DiagnosticValueNeeds"])], [k!"NvBlockNeeds", k!"DiagnosticCommunicationManagerNeeds", k!"DiagnosticRoutineNeeds"], k!"writeDiagnosticValueNeeds_DiagnosticValueNeeds"⟩,
      ⟨[(false, [k!"DiagnosticEventNeeds"])], [k!"NvBlockNeeds", k!"DiagnosticCommunicationManagerNeeds", k!"DiagnosticRoutineNeeds", k!"DiagnosticValueNeeds"], k!"writeDiagnosticEventNeeds_DiagnosticEventNeeds"⟩,
      ⟨[(false, [k!"DiagnosticEventInfoNeeds"])], [k!"NvBlockNeeds", k!"DiagnosticCommunicationManagerNeeds", k!"DiagnosticRoutineNeeds", k!"DiagnosticValueNeeds", k!"DiagnosticEventNeeds"], k!"writeDiagnosticEventInfoNeeds_DiagnosticEventInfoNeeds"⟩,
      ⟨[(false, [k!"DiagnosticIoControlNeeds"])], [k!"NvBlockNeeds", k!"DiagnosticCommunicationManagerNeeds", k!"DiagnosticRoutineNeeds", k!"DiagnosticValueNeeds", k!"DiagnosticEventNeeds", k!"DiagnosticEventInfoNeeds"], k!"writeDiagnosticIoControlNeeds_DiagnosticIoControlNeeds"⟩,
      ⟨[(false, [k!"DiagnosticEnableConditionNeeds"])], [k!"NvBlockNeeds", k!"DiagnosticCommunicationManagerNeeds", k!"DiagnosticRoutineNeeds", k!"DiagnosticValueNeeds", k!"DiagnosticEventNeeds", k!"DiagnosticEventInfoNeeds", k!"DiagnosticIoControlNeeds"], k!"writeDiagnosticEnableConditionNeeds_DiagnosticEnableConditionNeeds"⟩,
      ⟨[(false, [k!"DiagnosticOperationCycleNeeds"])], [k!"NvBlockNeeds", k!"DiagnosticCommunicationManagerNeeds", k!"DiagnosticRoutineNeeds", k!"DiagnosticValueNeeds", k!"DiagnosticEventNeeds", k!"DiagnosticEventInfoNeeds", k!"DiagnosticIoControlNeeds", k!"DiagnosticEnableConditionNeeds"], k!"writeDiagnosticOperationCycleNeeds_DiagnosticOperationCycleNeeds"⟩,
      ⟨[(false, [k!"DiagnosticStorageConditionNeeds"])], [k!"NvBlockNeeds", k!"DiagnosticCommunicationManagerNeeds", k!"DiagnosticRoutineNeeds", k!"DiagnosticValueNeeds", k!"DiagnosticEventNeeds", k!"DiagnosticEventInfoNeeds", k!"DiagnosticIoControlNeeds", k!"DiagnosticEnableConditionNeeds", k!"DiagnosticOperationCycleNeeds"], k!"writeDiagnosticStorageConditionNeeds_DiagnosticStorageConditionNeeds"⟩,
      ⟨[(false, [k!"IndicatorStatusNeeds"])], [k!"NvBlockNeeds", k!"DiagnosticCommunicationManagerNeeds", k!"DiagnosticRoutineNeeds", k!"DiagnosticValueNeeds", k!"DiagnosticEventNeeds", k!"DiagnosticEventInfoNeeds", k!"DiagnosticIoControlNeeds", k!"DiagnosticEnableConditionNeeds", k!"DiagnosticOperationCycleNeeds", k!"DiagnosticStorageConditionNeeds"], k!"writeIndicatorStatusNeeds_IndicatorStatusNeeds"⟩,
      ⟨[(false, [k!"FunctionInhibitionAvailabilityNeeds"])], [k!"NvBlockNeeds", k!"DiagnosticCommunicationManagerNeeds", k!"DiagnosticRoutineNeeds", k!"DiagnosticValueNeeds", k!"DiagnosticEventNeeds", k!"DiagnosticEventInfoNeeds", k!"DiagnosticIoControlNeeds", k!"DiagnosticEnableConditionNeeds", k!"DiagnosticOperationCycleNeeds", k!"DiagnosticStorageConditionNeeds", k!"IndicatorStatusNeeds"], k!"writeFunctionInhibitionAvailabilityNeeds_FunctionInhibitionAvailabilityNeeds"⟩,
      ⟨[(false, [k!"CryptoServiceNeeds"])], [k!"NvBlockNeeds", k!"DiagnosticCommunicationManagerNeeds", k!"DiagnosticRoutineNeeds", k!"DiagnosticValueNeeds", k!"DiagnosticEventNeeds", k!"DiagnosticEventInfoNeeds", k!"DiagnosticIoControlNeeds", k!"DiagnosticEnableConditionNeeds", k!"DiagnosticOperationCycleNeeds", k!"DiagnosticStorageConditionNeeds", k!"IndicatorStatusNeeds", k!"FunctionInhibitionAvailabilityNeeds"], k!"writeCryptoServiceNeeds_CryptoServiceNeeds"⟩,
      ⟨[(false, [k!"EcuStateMgrUserNeeds"])], [k!"NvBlockNeeds", k!"DiagnosticCommunicationManagerNeeds", k!"DiagnosticRoutineNeeds", k!"DiagnosticValueNeeds", k!"DiagnosticEventNeeds", k!"DiagnosticEventInfoNeeds", k!"DiagnosticIoControlNeeds", k!"DiagnosticEnableConditionNeeds", k!"DiagnosticOperationCycleNeeds", k!"DiagnosticStorageConditionNeeds", k!"IndicatorStatusNeeds", k!"FunctionInhibitionAvailabilityNeeds", k!"CryptoServiceNeeds"], k!"writeEcuStateMgrUserNeeds_EcuStateMgrUserNeeds"⟩,
      ⟨[(false, [k!"DtcStatusChangeNotificationNeeds"])], [k!"NvBlockNeeds", k!"DiagnosticCommunicationManagerNeeds", k!"DiagnosticRoutineNeeds", k!"DiagnosticValueNeeds", k!"DiagnosticEventNeeds", k!"DiagnosticEventInfoNeeds", k!"DiagnosticIoControlNeeds", k!"DiagnosticEnableConditionNeeds", k!"DiagnosticOperationCycleNeeds", k!"DiagnosticStorageConditionNeeds", k!"IndicatorStatusNeeds", k!"FunctionInhibitionAvailabilityNeeds", k!"CryptoServiceNeeds", k!"EcuStateMgrUserNeeds"], k!"writeDtcStatusChangeNotificationNeeds_DtcStatusChangeNotificationNeeds"⟩,
      ⟨[(false, [k!"DltUserNeeds"])], [k!"NvBlockNeeds", k!"DiagnosticCommunicationManagerNeeds", k!"DiagnosticRoutineNeeds", k!"DiagnosticValueNeeds", k!"DiagnosticEventNeeds", k!"DiagnosticEventInfoNeeds", k!"DiagnosticIoControlNeeds", k!"DiagnosticEnableConditionNeeds", k!"DiagnosticOperationCycleNeeds", k!"DiagnosticStorageConditionNeeds", k!"IndicatorStatusNeeds", k!"FunctionInhibitionAvailabilityNeeds", k!"CryptoServiceNeeds", k!"EcuStateMgrUserNeeds", k!"DtcStatusChangeNotificationNeeds"], k!"writeDltUserNeeds_DltUserNeeds"⟩,
      ⟨[(false, [k!"ComMgrUserNeeds"])], [k!"NvBlockNeeds", k!"DiagnosticCommunicationManagerNeeds", k!"DiagnosticRoutineNeeds", k!"DiagnosticValueNeeds", k!"DiagnosticEventNeeds", k!"DiagnosticEventInfoNeeds", k!"DiagnosticIoControlNeeds", k!"DiagnosticEnableConditionNeeds", k!"DiagnosticOperationCycleNeeds", k!"DiagnosticStorageConditionNeeds", k!"IndicatorStatusNeeds", k!"FunctionInhibitionAvailabilityNeeds", k!"CryptoServiceNeeds", k!"EcuStateMgrUserNeeds", k!"DtcStatusChangeNotificationNeeds", k!"DltUserNeeds"], k!"writeComMgrUserNeeds_ComMgrUserNeeds"⟩,
      ⟨[(false, [k!"ErrorTracerNeeds"])], [k!"NvBlockNeeds", k!"DiagnosticCommunicationManagerNeeds", k!"DiagnosticRoutineNeeds", k!"DiagnosticValueNeeds", k!"DiagnosticEventNeeds", k!"DiagnosticEventInfoNeeds", k!"DiagnosticIoControlNeeds", k!"DiagnosticEnableConditionNeeds", k!"DiagnosticOperationCycleNeeds", k!"DiagnosticStorageConditionNeeds", k!"IndicatorStatusNeeds", k!"FunctionInhibitionAvailabilityNeeds", k!"CryptoServiceNeeds", k!"EcuStateMgrUserNeeds", k!"DtcStatusChangeNotificationNeeds", k!"DltUserNeeds", k!"ComMgrUserNeeds"], k!"writeErrorTracerNeeds_ErrorTracerNeeds"⟩,
      ⟨[(false, [k!"ObdInfoServiceNeeds"])], [k!"NvBlockNeeds", k!"DiagnosticCommunicationManagerNeeds", k!"DiagnosticRoutineNeeds", k!"DiagnosticValueNeeds", k!"DiagnosticEventNeeds", k!"DiagnosticEventInfoNeeds", k!"DiagnosticIoControlNeeds", k!"DiagnosticEnableConditionNeeds", k!"DiagnosticOperationCycleNeeds", k!"DiagnosticStorageConditionNeeds", k!"IndicatorStatusNeeds", k!"FunctionInhibitionAvailabilityNeeds", k!"CryptoServiceNeeds", k!"EcuStateMgrUserNeeds", k!"DtcStatusChangeNotificationNeeds", k!"DltUserNeeds", k!"ComMgrUserNeeds", k!"ErrorTracerNeeds"], k!"writeObdInfoServiceNeeds_ObdInfoServiceNeeds"⟩,
      ⟨[(false, [k!"ObdMonitorServiceNeeds"])], [k!"NvBlockNeeds", k!"DiagnosticCommunicationManagerNeeds", k!"DiagnosticRoutineNeeds", k!"DiagnosticValueNeeds", k!"DiagnosticEventNeeds", k!"DiagnosticEventInfoNeeds", k!"DiagnosticIoControlNeeds", k!"DiagnosticEnableConditionNeeds", k!"DiagnosticOperationCycleNeeds", k!"DiagnosticStorageConditionNeeds", k!"IndicatorStatusNeeds", k!"FunctionInhibitionAvailabilityNeeds", k!"CryptoServiceNeeds", k!"EcuStateMgrUserNeeds", k!"DtcStatusChangeNotificationNeeds", k!"DltUserNeeds", k!"ComMgrUserNeeds", k!"ErrorTracerNeeds", k!"ObdInfoServiceNeeds"], k!"writeObdMonitorServiceNeeds_ObdMonitorServiceNeeds"⟩,
      ⟨[(false, [k!"ObdPidServiceNeeds"])], [k!"NvBlockNeeds", k!"DiagnosticCommunicationManagerNeeds", k!"DiagnosticRoutineNeeds", k!"DiagnosticValueNeeds", k!"DiagnosticEventNeeds", k!"DiagnosticEventInfoNeeds", k!"DiagnosticIoControlNeeds", k!"DiagnosticEnableConditionNeeds", k!"DiagnosticOperationCycleNeeds", k!"DiagnosticStorageConditionNeeds", k!"IndicatorStatusNeeds", k!"FunctionInhibitionAvailabilityNeeds", k!"CryptoServiceNeeds", k!"EcuStateMgrUserNeeds", k!"DtcStatusChangeNotificationNeeds", k!"DltUserNeeds", k!"ComMgrUserNeeds", k!"ErrorTracerNeeds", k!"ObdInfoServiceNeeds", k!"ObdMonitorServiceNeeds"], k!"writeObdPidServiceNeeds_ObdPidServiceNeeds"⟩,
      ⟨[(false, [k!"ObdControlServiceNeeds"])], [k!"NvBlockNeeds", k!"DiagnosticCommunicationManagerNeeds", k!"DiagnosticRoutineNeeds", k!"DiagnosticValueNeeds", k!"DiagnosticEventNeeds", k!"DiagnosticEventInfoNeeds", k!"DiagnosticIoControlNeeds", k!"DiagnosticEnableConditionNeeds", k!"DiagnosticOperationCycleNeeds", k!"DiagnosticStorageConditionNeeds", k!"IndicatorStatusNeeds", k!"FunctionInhibitionAvailabilityNeeds", k!"CryptoServiceNeeds", k!"EcuStateMgrUserNeeds", k!"DtcStatusChangeNotificationNeeds", k!"DltUserNeeds", k!"ComMgrUserNeeds", k!"ErrorTracerNeeds", k!"ObdInfoServiceNeeds", k!"ObdMonitorServiceNeeds", k!"ObdPidServiceNeeds"], k!"writeObdControlServiceNeeds_ObdControlServiceNeeds"⟩,
      ⟨[(false, [k!"ObdRatioServiceNeeds"])], [k!"NvBlockNeeds", k!"DiagnosticCommunicationManagerNeeds", k!"DiagnosticRoutineNeeds", k!"DiagnosticValueNeeds", k!"DiagnosticEventNeeds", k!"DiagnosticEventInfoNeeds", k!"DiagnosticIoControlNeeds", k!"DiagnosticEnableConditionNeeds", k!"DiagnosticOperationCycleNeeds", k!"DiagnosticStorageConditionNeeds", k!"IndicatorStatusNeeds", k!"FunctionInhibitionAvailabilityNeeds", k!"CryptoServiceNeeds", k!"EcuStateMgrUserNeeds", k!"DtcStatusChangeNotificationNeeds", k!"DltUserNeeds", k!"ComMgrUserNeeds", k!"ErrorTracerNeeds", k!"ObdInfoServiceNeeds", k!"ObdMonitorServiceNeeds", k!"ObdPidServiceNeeds", k!"ObdControlServiceNeeds"], k!"writeObdRatioServiceNeeds_ObdRatioServiceNeeds"⟩,
      ⟨[(false, [k!"ObdRatioDenominatorNeeds"])], [k!"NvBlockNeeds", k!"DiagnosticCommunicationManagerNeeds", k!"DiagnosticRoutineNeeds", k!"DiagnosticValueNeeds", k!"DiagnosticEventNeeds", k!"DiagnosticEventInfoNeeds", k!"DiagnosticIoControlNeeds", k!"DiagnosticEnableConditionNeeds", k!"DiagnosticOperationCycleNeeds", k!"DiagnosticStorageConditionNeeds", k!"IndicatorStatusNeeds", k!"FunctionInhibitionAvailabilityNeeds", k!"CryptoServiceNeeds", k!"EcuStateMgrUserNeeds", k!"DtcStatusChangeNotificationNeeds", k!"DltUserNeeds", k!"ComMgrUserNeeds", k!"ErrorTracerNeeds", k!"ObdInfoServiceNeeds", k!"ObdMonitorServiceNeeds", k!"ObdPidServiceNeeds", k!"ObdControlServiceNeeds", k!"ObdRatioServiceNeeds"], k!"writeObdRatioDenominatorNeeds_ObdRatioDenominatorNeeds"⟩,
      ⟨[(false, [k!"DoIpRoutingActivationAuthenticationNeeds"])], [k!"NvBlockNeeds", k!"DiagnosticCommunicationManagerNeeds", k!"DiagnosticRoutineNeeds", k!"DiagnosticValueNeeds", k!"DiagnosticEventNeeds", k!"DiagnosticEventInfoNeeds", k!"DiagnosticIoControlNeeds", k!"DiagnosticEnableConditionNeeds", k!"DiagnosticOperationCycleNeeds", k!"DiagnosticStorageConditionNeeds", k!"IndicatorStatusNeeds", k!"FunctionInhibitionAvailabilityNeeds", k!"CryptoServiceNeeds", k!"EcuStateMgrUserNeeds", k!"DtcStatusChangeNotificationNeeds", k!"DltUserNeeds", k!"ComMgrUserNeeds", k!"ErrorTracerNeeds", k!"ObdInfoServiceNeeds", k!"ObdMonitorServiceNeeds", k!"ObdPidServiceNeeds", k!"ObdControlServiceNeeds", k!"ObdRatioServiceNeeds", k!"ObdRatioDenominatorNeeds"], k!"writeDoIpRoutingActivationAuthenticationNeeds_DoIpRoutingActivationAuthenticationNeeds"⟩,
      ⟨[(false, [k!"DoIpRoutingActivationConfirmationNeeds"])], [k!"NvBlockNeeds", k!"DiagnosticCommunicationManagerNeeds", k!"DiagnosticRoutineNeeds", k!"DiagnosticValueNeeds", k!"DiagnosticEventNeeds", k!"DiagnosticEventInfoNeeds", k!"DiagnosticIoControlNeeds", k!"DiagnosticEnableConditionNeeds", k!"DiagnosticOperationCycleNeeds", k!"DiagnosticStorageConditionNeeds", k!"IndicatorStatusNeeds", k!"FunctionInhibitionAvailabilityNeeds", k!"CryptoServiceNeeds", k!"EcuStateMgrUserNeeds", k!"DtcStatusChangeNotificationNeeds", k!"DltUserNeeds", k!"ComMgrUserNeeds", k!"ErrorTracerNeeds", k!"ObdInfoServiceNeeds", k!"ObdMonitorServiceNeeds", k!"ObdPidServiceNeeds", k!"ObdControlServiceNeeds", k!"ObdRatioServiceNeeds", k!"ObdRatioDenominatorNeeds", k!"DoIpRoutingActivationAuthenticationNeeds"], k!"writeDoIpRoutingActivationConfirmationNeeds_DoIpRoutingActivationConfirmationNeeds"⟩,
      ⟨[(false, [k!"SecureOnBoardCommunicationNeeds"])], [k!"NvBlockNeeds", k!"DiagnosticCommunicationManagerNeeds", k!"DiagnosticRoutineNeeds", k!"DiagnosticValueNeeds", k!"DiagnosticEventNeeds", k!"DiagnosticEventInfoNeeds", k!"DiagnosticIoControlNeeds", k!"DiagnosticEnableConditionNeeds", k!"DiagnosticOperationCycleNeeds", k!"DiagnosticStorageConditionNeeds", k!"IndicatorStatusNeeds", k!"FunctionInhibitionAvailabilityNeeds", k!"CryptoServiceNeeds", k!"EcuStateMgrUserNeeds", k!"DtcStatusChangeNotificationNeeds", k!"DltUserNeeds", k!"ComMgrUserNeeds", k!"ErrorTracerNeeds", k!"ObdInfoServiceNeeds", k!"ObdMonitorServiceNeeds", k!"ObdPidServiceNeeds", k!"ObdControlServiceNeeds", k!"ObdRatioServiceNeeds", k!"ObdRatioDenominatorNeeds", k!"DoIpRoutingActivationAuthenticationNeeds", k!"DoIpRoutingActivationConfirmationNeeds"], k!"writeSecureOnBoardCommunicationNeeds_SecureOnBoardCommunicationNeeds"⟩,
      ⟨[(false, [k!"IdsMgrNeeds"])], [k!"NvBlockNeeds", k!"DiagnosticCommunicationManagerNeeds", k!"DiagnosticRoutineNeeds", k!"DiagnosticValueNeeds", k!"DiagnosticEventNeeds", k!"DiagnosticEventInfoNeeds", k!"DiagnosticIoControlNeeds", k!"DiagnosticEnableConditionNeeds", k!"DiagnosticOperationCycleNeeds", k!"DiagnosticStorageConditionNeeds", k!"IndicatorStatusNeeds", k!"FunctionInhibitionAvailabilityNeeds", k!"CryptoServiceNeeds", k!"EcuStateMgrUserNeeds", k!"DtcStatusChangeNotificationNeeds", k!"DltUserNeeds", k!"ComMgrUserNeeds", k!"ErrorTracerNeeds", k!"ObdInfoServiceNeeds", k!"ObdMonitorServiceNeeds", k!"ObdPidServiceNeeds", k!"ObdControlServiceNeeds", k!"ObdRatioServiceNeeds", k!"ObdRatioDenominatorNeeds", k!"DoIpRoutingActivationAuthenticationNeeds", k!"DoIpRoutingActivationConfirmationNeeds", k!"SecureOnBoardCommunicationNeeds"], k!"writeIdsMgrNeeds_IdsMgrNeeds"⟩] .unsupported <|
    .nil) <|
  .nil

/-- `writeSwcServiceDependency`, `writer/arxml_writer.py:3877-3883` -/
def writeSwcServiceDependency_SwcServiceDependency : WB :=
  /- 3878 -/ .wrap .always k!"SWC-SERVICE-DEPENDENCY" (
    /- 3879 -/ writeServiceDependency_ServiceDependency.app <|
    /- 3880 -/ writeBswServiceDependencyAssignedData_BswServiceDependency.app <|
    /- 3881 -/ writeSwcServiceDependencyAssignedPorts_SwcServiceDependency.app <|
    /- 3882 -/ writeSwcServiceDependencyServiceNeeds_SwcServiceDependency.app <|
    /- 3883 -/ writeSwcServiceDependencyRepresentedPortGroup_SwcServiceDependency.app <|
    .nil) <|
  .nil

/-- `writeTimingRequirements`, `writer/arxml_writer.py:5726-5734` -/
def writeTimingRequirements_TimingExtension : WB :=
  /- 5729 -/ .wrap (.any [(k!"timing_requirements", [])]) k!"TIMING-REQUIREMENTS" (
    /- 5732 -/ .each k!"timing_requirements" [] .plain [⟨[(false, [k!"ExecutionOrderConstraint"])], [], k!"writeExecutionOrderConstraint_ExecutionOrderConstraint"⟩] .unsupported <|
    .nil) <|
  .nil

/-- `writeTimingExtension`, `writer/arxml_writer.py:5736-5737` -/
def writeTimingExtension_TimingExtension : WB :=
  /- 5737 -/ writeTimingRequirements_TimingExtension.app <|
  .nil

/-- `writeSwcTiming`, `writer/arxml_writer.py:5739-5743` -/
def writeSwcTiming_SwcTiming : WB :=
  /- 5741 -/ .wrap .always k!"SWC-TIMING" (
    /- 5742 -/ writeIdentifiable_ARPackage.app <|
    /- 5743 -/ writeTimingExtension_TimingExtension.app <|
    .nil) <|
  .nil

/-- `writeSwcToImplMapping`, `writer/arxml_writer.py:7963-7972` -/
def writeSwcToImplMapping_SwcToImplMapping : WB :=
  /- 7965 -/ .wrap .always k!"SWC-TO-IMPL-MAPPING" (
    /- 7966 -/ writeIdentifiable_ARPackage.app <|
    /- 7967 -/ .prim k!"COMPONENT-IMPLEMENTATION-REF" .ref k!"componentImplementationRef" <|
    /- 7970 -/ .wrap (.any [(k!"componentIRefs", [])]) k!"COMPONENT-IREFS" (
      /- 7972 -/ .each k!"componentIRefs" [] .plain [⟨[], [], k!"setComponentInSystemInstanceRef_COMPONENT_IREF_ComponentInSystemInstanceRef"⟩] .skip <|
      .nil) <|
    .nil) <|
  .nil

/-- `writeSymbolProps`, `writer/arxml_writer.py:5397-5400` -/
def writeSymbolProps_SymbolProps : WB :=
  /- 5399 -/ .wrap .always k!"SYMBOL-PROPS" (
    /- 5400 -/ writeImplementationProps_ImplementationProps.app <|
    .nil) <|
  .nil

/-- `writeSymbolicNameProps`, `writer/arxml_writer.py:3350-3355` (the block at line 3354) -/
def writeSymbolicNameProps_ServiceDependency_L3354 : WB :=
  /- 3354 -/ .wrap .always k!"SYMBOLIC-NAME-PROPS" (
    /- 3355 -/ writeImplementationProps_ImplementationProps.app <|
    .nil) <|
  .nil

/-- `writeSystemFibexElementRefs`, `writer/arxml_writer.py:8018-8024` -/
def writeSystemFibexElementRefs_System : WB :=
  /- 8021 -/ .wrap (.any [(k!"fibexElements", [])]) k!"FIBEX-ELEMENTS" (
    /- 8024 -/ .oprim k!"FIBEX-ELEMENT-REF-CONDITIONAL" k!"FIBEX-ELEMENT-REF" .ref k!"fibexElements" <|
    .nil) <|
  .nil

/-- `writeSystemMappingDataMappings`, `writer/arxml_writer.py:7913-7923` -/
def writeSystemMappingDataMappings_SystemMapping : WB :=
  /- 7916 -/ .wrap (.any [(k!"dataMappings", [])]) k!"DATA-MAPPINGS" (
    /- 7919 -/ .each k!"dataMappings" [] .plain [⟨[(false, [k!"SenderReceiverToSignalMapping"])], [], k!"writeSenderReceiverToSignalMapping_SenderReceiverToSignalMapping"⟩,
      ⟨[(false, [k!"SenderReceiverToSignalGroupMapping"])], [k!"SenderReceiverToSignalMapping"], k!"writeSenderReceiverToSignalGroupMapping_SenderReceiverToSignalGroupMapping"⟩] .unsupported <|
    .nil) <|
  .nil

/-- `writeSystemMappingEcuResourceMappings`, `writer/arxml_writer.py:7953-7961` -/
def writeSystemMappingEcuResourceMappings_SystemMapping : WB :=
  /- 7956 -/ .wrap (.any [(k!"ecuResourceMappings", [])]) k!"ECU-RESOURCE-MAPPINGS" (
    /- 7959 -/ .each k!"ecuResourceMappings" [] .plain [⟨[(false, [k!"ECUMapping"])], [], k!"writeEcuMapping_ECUMapping"⟩] .unsupported <|
    .nil) <|
  .nil

/-- `writeSystemMappingSwImplMappings`, `writer/arxml_writer.py:7974-7982` -/
def writeSystemMappingSwImplMappings_SystemMapping : WB :=
  /- 7977 -/ .wrap (.any [(k!"swImplMappings", [])]) k!"SW-IMPL-MAPPINGS" (
    /- 7980 -/ .each k!"swImplMappings" [] .plain [⟨[(false, [k!"SwcToImplMapping"])], [], k!"writeSwcToImplMapping_SwcToImplMapping"⟩] .unsupported <|
    .nil) <|
  .nil

/-- `writeSystemMappingSwMappings`, `writer/arxml_writer.py:7935-7943` -/
def writeSystemMappingSwMappings_SystemMapping : WB :=
  /- 7938 -/ .wrap (.any [(k!"swMappings", [])]) k!"SW-MAPPINGS" (
    /- 7941 -/ .each k!"swMappings" [] .plain [⟨[(false, [k!"SwcToEcuMapping"])], [], k!"setSwcToEcuMapping_SwcToEcuMapping"⟩] .unsupported <|
    .nil) <|
  .nil

/-- `writeSystemMapping`, `writer/arxml_writer.py:7984-7991` -/
def writeSystemMapping_SystemMapping : WB :=
  /- 7986 -/ .wrap .always k!"SYSTEM-MAPPING" (
    /- 7987 -/ writeIdentifiable_ARPackage.app <|
    /- 7988 -/ writeSystemMappingDataMappings_SystemMapping.app <|
    /- 7989 -/ writeSystemMappingEcuResourceMappings_SystemMapping.app <|
    /- 7990 -/ writeSystemMappingSwImplMappings_SystemMapping.app <|
    /- 7991 -/ writeSystemMappingSwMappings_SystemMapping.app <|
    .nil) <|
  .nil

/-- `writeSystemMappings`, `writer/arxml_writer.py:7993-8001` -/
def writeSystemMappings_System : WB :=
  /- 7996 -/ .wrap (.any [(k!"elements", [k!"SystemMapping"])]) k!"MAPPINGS" (
    /- 7999 -/ .each k!"elements" [k!"SystemMapping"] .sorted [⟨[(false, [k!"SystemMapping"])], [], k!"writeSystemMapping_SystemMapping"⟩] .unsupported <|
    .nil) <|
  .nil

/-- `writeSystemSignalGroup`, `writer/arxml_writer.py:7854-7863` -/
def writeSystemSignalGroup_SystemSignalGroup : WB :=
  /- 7856 -/ .wrap .always k!"SYSTEM-SIGNAL-GROUP" (
    /- 7857 -/ writeIdentifiable_ARPackage.app <|
    /- 7860 -/ .wrap (.any [(k!"systemSignalRefs", [])]) k!"SYSTEM-SIGNAL-REFS" (
      /- 7862 -/ .prim k!"SYSTEM-SIGNAL-REF" .ref k!"systemSignalRefs" <|
      .nil) <|
    /- 7863 -/ .prim k!"TRANSFORMING-SYSTEM-SIGNAL-REF" .ref k!"transformingSystemSignalRef" <|
    .nil) <|
  .nil

/-- `writeSystemSignal`, `writer/arxml_writer.py:8567-8572` -/
def writeSystemSignal_SystemSignal : WB :=
  /- 8569 -/ .wrap .always k!"SYSTEM-SIGNAL" (
    /- 8570 -/ writeIdentifiable_ARPackage.app <|
    /- 8571 -/ .prim k!"DYNAMIC-LENGTH" .lit k!"dynamicLength" <|
    /- 8572 -/ .each k!"physicalProps" [] .plain [⟨[], [], k!"setSwDataDefProps_PHYSICAL_PROPS_SwDataDefProps"⟩] .skip <|
    .nil) <|
  .nil

/-- `writeSystem`, `writer/arxml_writer.py:8026-8034` -/
def writeSystem_System : WB :=
  /- 8028 -/ .wrap .always k!"SYSTEM" (
    /- 8029 -/ writeARElement_System.app <|
    /- 8030 -/ .prim k!"ECU-EXTRACT-VERSION" .lit k!"ecuExtractVersion" <|
    /- 8031 -/ writeSystemFibexElementRefs_System.app <|
    /- 8032 -/ writeSystemMappings_System.app <|
    /- 8033 -/ writeRootSwCompositionPrototype_System.app <|
    /- 8034 -/ .prim k!"SYSTEM-VERSION" .lit k!"systemVersion" <|
    .nil) <|
  .nil

/-- `writeTcpTp`, `writer/arxml_writer.py:6541-6548` -/
def writeTcpTp_TcpTp : WB :=
  /- 6542 -/ .wrap .always k!"TCP-TP" (
    /- 6543 -/ .prim k!"KEEP-ALIVE-INTERVAL" .lit k!"keepAliveInterval" <|
    /- 6544 -/ .prim k!"KEEP-ALIVE-PROBES-MAX" .numerical k!"keepAliveProbesMax" <|
    /- 6545 -/ .prim k!"KEEP-ALIVE-TIME" .lit k!"keepAliveTime" <|
    /- 6546 -/ .prim k!"KEEP-ALIVES" .lit k!"keepAlives" <|
    /- 6547 -/ .prim k!"NAGLES-ALGORITHM" .lit k!"naglesAlgorithm" <|
    /- 6548 -/ .each k!"tcpTpPort" [] .plain [⟨[], [], k!"setTpPort_TCP_TP_PORT_TpPort"⟩] .skip <|
    .nil) <|
  .nil

/-- `writeTextValueSpecification`, `writer/arxml_writer.py:1208-1212` -/
def writeTextValueSpecification_TextValueSpecification : WB :=
  /- 1210 -/ .wrap .always k!"TEXT-VALUE-SPECIFICATION" (
    /- 1211 -/ writeValueSpecification_ValueSpecification.app <|
    /- 1212 -/ .prim k!"VALUE" .lit k!"value" <|
    .nil) <|
  .nil

/-- `writeTimingEvent`, `writer/arxml_writer.py:2570-2575` -/
def writeTimingEvent_TimingEvent : WB :=
  /- 2572 -/ .wrap .always k!"TIMING-EVENT" (
    /- 2573 -/ setRTEEvent_RTEEvent.app <|
    /- 2574 -/ .prim k!"OFFSET" .lit k!"offset" <|
    /- 2575 -/ .prim k!"PERIOD" .lit k!"period" <|
    .nil) <|
  .nil

/-- `writeTopic1`, `writer/arxml_writer.py:1627-1632` -/
def writeTopic1_Topic1 : WB :=
  /- 1628 -/ .wrap .always k!"TOPIC-1" (
    /- 1629 -/ writeIdentifiable_ARPackage.app <|
    /- 1631 -/ .attr k!"HELP-ENTRY" .getValue k!"helpEntry" <|
    /- 1614 -/ .each k!"topicContent.msrQueryP1" [] .plain [⟨[], [], k!"writeMsrQueryP1_MsrQueryP1"⟩] .skip <|
    /- 1616 -/ .each k!"topicContent.topicContent" [] .plain [⟨[], [], k!"writeTopicContent_TopicContent"⟩] .skip <|
    .nil) <|
  .nil

/-- `writeTopicContent`, `writer/arxml_writer.py:1622-1625` -/
def writeTopicContent_TopicContent : WB :=
  /- 1623 -/ .wrap .always k!"TOPIC-CONTENT" (
    /- 1624 -/ .attr k!"T" .raw k!"timestamp" <|
    /- 1624 -/ .attr k!"UUID" .raw k!"uuid" <|
    /- 1625 -/ .each k!"blockLevelContent" [] .plain [⟨[], [], k!"writeDocumentationBlock_DOCUMENTATION_BLOCK_DocumentationBlock"⟩] .skip <|
    .nil) <|
  .nil

/-- `writeTpAddress`, `writer/arxml_writer.py:6155-6159` -/
def writeTpAddress_TpAddress : WB :=
  /- 6157 -/ .wrap .always k!"TP-ADDRESS" (
    /- 6158 -/ writeIdentifiable_ARPackage.app <|
    /- 6159 -/ .prim k!"TP-ADDRESS" .numerical k!"tpAddress" <|
    .nil) <|
  .nil

/-- `writeTpConnection`, `writer/arxml_writer.py:6063-6068` (the block at line 6067) -/
def writeTpConnection_TpConnection_L6067 : WB :=
  /- 6067 -/ .wrap .always k!"IDENT" (
    /- 6068 -/ writeReferrable_ARPackage.app <|
    .nil) <|
  .nil

/-- `writeTransformationTechnologyTransformationDescriptions`, `writer/arxml_writer.py:9278-9285` -/
def writeTransformationTechnologyTransformationDescriptions_TransformationTechnology : WB :=
  /- 9281 -/ .wrap (.any [(k!"transformationDescription", [])]) k!"TRANSFORMATION-DESCRIPTIONS" (
    /- 9283 -/ .each k!"transformationDescription" [] .plain [⟨[(false, [k!"EndToEndTransformationDescription"])], [], k!"writeEndToEndTransformationDescription_EndToEndTransformationDescription"⟩] .unsupported <|
    .nil) <|
  .nil

/-- `writeTransformationTechnology`, `writer/arxml_writer.py:9287-9297` -/
def writeTransformationTechnology_TransformationTechnology : WB :=
  /- 9289 -/ .wrap .always k!"TRANSFORMATION-TECHNOLOGY" (
    /- 9290 -/ writeIdentifiable_ARPackage.app <|
    /- 9291 -/ .each k!"bufferProperties" [] .plain [⟨[], [], k!"setBufferProperties_BUFFER_PROPERTIES_BufferProperties"⟩] .skip <|
    /- 9292 -/ .prim k!"HAS-INTERNAL-STATE" .lit k!"hasInternalState" <|
    /- 9293 -/ .prim k!"NEEDS-ORIGINAL-DATA" .lit k!"needsOriginalData" <|
    /- 9294 -/ .prim k!"PROTOCOL" .lit k!"protocol" <|
    /- 9295 -/ writeTransformationTechnologyTransformationDescriptions_TransformationTechnology.app <|
    /- 9296 -/ .prim k!"TRANSFORMER-CLASS" .lit k!"transformerClass" <|
    /- 9297 -/ .prim k!"VERSION" .lit k!"version" <|
    .nil) <|
  .nil

/-- `writeTransmissionAcknowledgementRequest`, `writer/arxml_writer.py:1009-1013` -/
def writeTransmissionAcknowledgementRequest_TransmissionAcknowledgementRequest : WB :=
  /- 1011 -/ .wrap .always k!"TRANSMISSION-ACKNOWLEDGE" (
    /- 1012 -/ .attr k!"T" .raw k!"timestamp" <|
    /- 1012 -/ .attr k!"UUID" .raw k!"uuid" <|
    /- 1013 -/ .prim k!"TIMEOUT" .lit k!"timeout" <|
    .nil) <|
  .nil

/-- `writeTransmissionComSpecProps`, `writer/arxml_writer.py:1015-1021` -/
def writeTransmissionComSpecProps_TransmissionComSpecProps : WB :=
  /- 1017 -/ .wrap .always k!"TRANSMISSION-PROPS" (
    /- 1018 -/ .attr k!"T" .raw k!"timestamp" <|
    /- 1018 -/ .attr k!"UUID" .raw k!"uuid" <|
    /- 1019 -/ .prim k!"DATA-UPDATE-PERIOD" .lit k!"dataUpdatePeriod" <|
    /- 1020 -/ .prim k!"MINIMUM-SEND-INTERVAL" .lit k!"minimumSendInterval" <|
    /- 1021 -/ .prim k!"TRANSMISSION-MODE" .lit k!"transmissionMode" <|
    .nil) <|
  .nil

/-- `writeTriggerPortAnnotation`, `writer/arxml_writer.py:1468-1470` -/
def writeTriggerPortAnnotation_TriggerPortAnnotation : WB :=
  /- 1469 -/ .wrap .always k!"TRIGGER-PORT-ANNOTATION" (
    /- 1470 -/ .prim k!"TRIGGER-REF" .ref k!"triggerRef" <|
    .nil) <|
  .nil

/-- `writeTrigger`, `writer/arxml_writer.py:5089-5091` -/
def writeTrigger_Trigger : WB :=
  /- 5090 -/ .wrap .always k!"TRIGGER" (
    /- 5091 -/ writeIdentifiable_ARPackage.app <|
    .nil) <|
  .nil

/-- `writeUdpNmClusterCoupling`, `writer/arxml_writer.py:5833-5840` -/
def writeUdpNmClusterCoupling_UdpNmClusterCoupling : WB :=
  /- 5834 -/ .wrap .always k!"UDP-NM-CLUSTER-COUPLING" (
    /- 5837 -/ .wrap (.any [(k!"coupledClusterRefs", [])]) k!"COUPLED-CLUSTER-REFS" (
      /- 5839 -/ .prim k!"COUPLED-CLUSTER-REF" .ref k!"coupledClusterRefs" <|
      .nil) <|
    /- 5840 -/ .prim k!"NM-IMMEDIATE-RESTART-ENABLED" .lit k!"nmImmediateRestartEnabled" <|
    .nil) <|
  .nil

/-- `writeUdpNmCluster`, `writer/arxml_writer.py:5884-5899` -/
def writeUdpNmCluster_UdpNmCluster : WB :=
  /- 5886 -/ .wrap .always k!"UDP-NM-CLUSTER" (
    /- 5887 -/ writeNmCluster_NmCluster.app <|
    /- 5888 -/ .prim k!"NM-CBV-POSITION" .numerical k!"nmCbvPosition" <|
    /- 5889 -/ .prim k!"NM-CHANNEL-ACTIVE" .lit k!"nmChannelActive" <|
    /- 5890 -/ .prim k!"NM-IMMEDIATE-NM-CYCLE-TIME" .lit k!"nmImmediateNmCycleTime" <|
    /- 5891 -/ .prim k!"NM-IMMEDIATE-NM-TRANSMISSIONS" .numerical k!"nmImmediateNmTransmissions" <|
    /- 5892 -/ .prim k!"NM-MESSAGE-TIMEOUT-TIME" .lit k!"nmMessageTimeoutTime" <|
    /- 5893 -/ .prim k!"NM-MSG-CYCLE-TIME" .lit k!"nmMsgCycleTime" <|
    /- 5894 -/ .prim k!"NM-NETWORK-TIMEOUT" .lit k!"nmNetworkTimeout" <|
    /- 5895 -/ .prim k!"NM-NID-POSITION" .numerical k!"nmNidPosition" <|
    /- 5896 -/ .prim k!"NM-REMOTE-SLEEP-INDICATION-TIME" .lit k!"nmRemoteSleepIndicationTime" <|
    /- 5897 -/ .prim k!"NM-REPEAT-MESSAGE-TIME" .lit k!"nmRepeatMessageTime" <|
    /- 5898 -/ .prim k!"NM-WAIT-BUS-SLEEP-TIME" .lit k!"nmWaitBusSleepTime" <|
    /- 5899 -/ .prim k!"VLAN-REF" .ref k!"vlanRef" <|
    .nil) <|
  .nil

/-- `writeUdpNmEcu`, `writer/arxml_writer.py:5913-5916` -/
def writeUdpNmEcu_UdpNmEcu : WB :=
  /- 5915 -/ .wrap .always k!"UDP-NM-ECU" (
    /- 5916 -/ .prim k!"NM-SYNCHRONIZATION-POINT-ENABLED" .lit k!"nmSynchronizationPointEnabled" <|
    .nil) <|
  .nil

/-- `writeUdpNmNode`, `writer/arxml_writer.py:5796-5800` -/
def writeUdpNmNode_UdpNmNode : WB :=
  /- 5798 -/ .wrap .always k!"UDP-NM-NODE" (
    /- 5799 -/ writeNmNode_NmNode.app <|
    /- 5800 -/ .prim k!"NM-MSG-CYCLE-OFFSET" .lit k!"nmMsgCycleOffset" <|
    .nil) <|
  .nil

/-- `writeUdpTp`, `writer/arxml_writer.py:6537-6539` -/
def writeUdpTp_UdpTp : WB :=
  /- 6538 -/ .wrap .always k!"UDP-TP" (
    /- 6539 -/ .each k!"udpTpPort" [] .plain [⟨[], [], k!"setTpPort_UDP_TP_PORT_TpPort"⟩] .skip <|
    .nil) <|
  .nil

/-- `writeUnit`, `writer/arxml_writer.py:2530-2537` -/
def writeUnit_Unit : WB :=
  /- 2532 -/ .wrap .always k!"UNIT" (
    /- 2533 -/ writeIdentifiable_ARPackage.app <|
    /- 2534 -/ .prim k!"DISPLAY-NAME" .lit k!"displayName" <|
    /- 2535 -/ .prim k!"FACTOR-SI-TO-UNIT" .lit k!"factorSiToUnit" <|
    /- 2536 -/ .prim k!"OFFSET-SI-TO-UNIT" .lit k!"offsetSiToUnit" <|
    /- 2537 -/ .prim k!"PHYSICAL-DIMENSION-REF" .ref k!"physicalDimensionRef" <|
    .nil) <|
  .nil

/-- `writeUserDefinedIPdu`, `writer/arxml_writer.py:8800-8804` -/
def writeUserDefinedIPdu_UserDefinedIPdu : WB :=
  /- 8802 -/ .wrap .always k!"USER-DEFINED-I-PDU" (
    /- 8803 -/ writeIPdu_IPdu.app <|
    /- 8804 -/ .prim k!"CDD-TYPE" .lit k!"cddType" <|
    .nil) <|
  .nil

/-- `writeUserDefinedPdu`, `writer/arxml_writer.py:8806-8810` -/
def writeUserDefinedPdu_UserDefinedPdu : WB :=
  /- 8808 -/ .wrap .always k!"USER-DEFINED-PDU" (
    /- 8809 -/ writePdu_Pdu.app <|
    /- 8810 -/ .prim k!"CDD-TYPE" .lit k!"cddType" <|
    .nil) <|
  .nil

/-- `writeUserDefinedTransformationComSpecProps`, `writer/arxml_writer.py:1047-1050` -/
def writeUserDefinedTransformationComSpecProps_UserDefinedTransformationComSpecProps : WB :=
  /- 1049 -/ .wrap .always k!"USER-DEFINED-TRANSFORMATION-COM-SPEC-PROPS" (
    /- 1050 -/ writeCommunicationCycle_CommunicationCycle.app <|
    .nil) <|
  .nil

/-- `writeVariableAccess`, `writer/arxml_writer.py:2827-2830` -/
def writeVariableAccess_VariableAccess : WB :=
  /- 2828 -/ .wrap .always k!"VARIABLE-ACCESS" (
    /- 2829 -/ writeIdentifiable_ARPackage.app <|
    /- 2830 -/ .each k!"accessedVariableRef" [] .plain [⟨[], [], k!"setAutosarVariableRef_ACCESSED_VARIABLE_AutosarVariableRef"⟩] .skip <|
    .nil) <|
  .nil

/-- `writeVariableAndParameterInterfaceMapping`, `writer/arxml_writer.py:8119-8123` -/
def writeVariableAndParameterInterfaceMapping_VariableAndParameterInterfaceMapping : WB :=
  /- 8121 -/ .wrap .always k!"VARIABLE-AND-PARAMETER-INTERFACE-MAPPING" (
    /- 8122 -/ writeIdentifiable_ARPackage.app <|
    /- 8115 -/ .wrap (.any [(k!"dataMappings", [])]) k!"DATA-MAPPINGS" (
      /- 8117 -/ .each k!"dataMappings" [] .plain [⟨[], [], k!"setDataPrototypeMapping_DataPrototypeMapping"⟩] .skip <|
      .nil) <|
    .nil) <|
  .nil

/-- `writeVariableDataPrototypeInCompositionInstanceRef`, `writer/arxml_writer.py:2986-2992` -/
def writeVariableDataPrototypeInCompositionInstanceRef_IMPLICIT_DATA_ACCESS_IREF_VariableDataPrototypeInCompositionInstanceRef : WB :=
  /- 2988 -/ .wrap .always k!"IMPLICIT-DATA-ACCESS-IREF" (
    /- 2990 -/ .prim k!"CONTEXT-SW-COMPONENT-PROTOTYPE-REF" .ref k!"contextSwComponentPrototypeRefs" <|
    /- 2991 -/ .prim k!"CONTEXT-PORT-PROTOTYPE-REF" .ref k!"contextPortPrototypeRef" <|
    /- 2992 -/ .prim k!"TARGET-VARIABLE-DATA-PROTOTYPE-REF" .ref k!"targetVariableDataPrototypeRef" <|
    .nil) <|
  .nil

/-- `writeVariationPointProxy`, `writer/arxml_writer.py:3251-3270` -/
def writeVariationPointProxy_VariationPointProxy : WB :=
  /- 3252 -/ .wrap .always k!"VARIATION-POINT-PROXY" (
    /- 3253 -/ writeIdentifiable_ARPackage.app <|
    /- 3254 -/ .each k!"conditionAccess" [] .plain [⟨[], [], k!"writeConditionByFormula_ConditionByFormula_CONDITION_ACCESS"⟩] .skip <|
    /- 3255 -/ .prim k!"IMPLEMENTATION-DATA-TYPE-REF" .ref k!"implementationDataTypeRef" <|
    /- 3256 -/ .prim k!"POST-BUILD-VALUE-ACCESS-REF" .ref k!"postBuildValueAccessRef" <|
    /- 3259 -/ .wrap (.any [(k!"postBuildVariantConditions", [])]) k!"POST-BUILD-VARIANT-CONDITIONS" (
      /- 3261 -/ .each k!"postBuildVariantConditions" [] .plain [⟨[], [], k!"writePostBuildVariantCondition_PostBuildVariantCondition"⟩] .skip <|
      .nil) <|
    /- 3264 -/ .wrap (.any [(k!"valueAccess", [])]) k!"VALUE-ACCESS" (
      /- 3267 -/ .each k!"valueAccess" [] .plain [⟨[(true, [k!"LimitValueVariationPoint"])], [], k!"writeVariationPointProxy_VariationPointProxy_L3267"⟩,
        ⟨[(true, [k!"NumericalValueVariationPoint"])], [], k!"writeVariationPointProxy_VariationPointProxy_L3267_2"⟩,
        ⟨[(true, [k!"BooleanValueVariationPoint"])], [], k!"writeVariationPointProxy_VariationPointProxy_L3267_3"⟩,
        ⟨[(true, [k!"FloatValueVariationPoint"])], [], k!"writeVariationPointProxy_VariationPointProxy_L3267_4"⟩,
        ⟨[(true, [k!"IntegerValueVariationPoint"])], [], k!"writeVariationPointProxy_VariationPointProxy_L3267_5"⟩,
        ⟨[(true, [k!"PositiveIntegerValueVariationPoint"])], [], k!"writeVariationPointProxy_VariationPointProxy_L3267_6"⟩,
        ⟨[(true, [k!"TimeValueValueVariationPoint"])], [], k!"writeVariationPointProxy_VariationPointProxy_L3267_7"⟩,
        ⟨[(true, [k!"UnlimitedIntegerValueVariationPoint"])], [], k!"writeVariationPointProxy_VariationPointProxy_L3267_8"⟩] .unsupported <|
      .nil) <|
    .nil) <|
  .nil

/-- `writeVariationPointProxy`, `writer/arxml_writer.py:3251-3270` (the block at line 3267) -/
def writeVariationPointProxy_VariationPointProxy_L3267 : WB :=
  /- 3267 -/ .wrap .always k!"LIMIT" (
    /- 3268 -/ writeAttributeValueVariationPoint_AttributeValueVariationPoint.app <|
    .nil) <|
  .nil

/-- `writeVariationPointProxy`, `writer/arxml_writer.py:3251-3270` (the block at line 3267) -/
def writeVariationPointProxy_VariationPointProxy_L3267_2 : WB :=
  /- 3267 -/ .wrap .always k!"NUMERICAL-VALUE-VARIATION-POINT" (
    /- 3268 -/ writeAttributeValueVariationPoint_AttributeValueVariationPoint.app <|
    .nil) <|
  .nil

/-- `writeVariationPointProxy`, `writer/arxml_writer.py:3251-3270` (the block at line 3267) -/
def writeVariationPointProxy_VariationPointProxy_L3267_3 : WB :=
  /- 3267 -/ .wrap .always k!"BOOLEAN-VALUE-VARIATION-POINT" (
    /- 3268 -/ writeAttributeValueVariationPoint_AttributeValueVariationPoint.app <|
    .nil) <|
  .nil

/-- `writeVariationPointProxy`, `writer/arxml_writer.py:3251-3270` (the block at line 3267) -/
def writeVariationPointProxy_VariationPointProxy_L3267_4 : WB :=
  /- 3267 -/ .wrap .always k!"FLOAT-VALUE-VARIATION-POINT" (
    /- 3268 -/ writeAttributeValueVariationPoint_AttributeValueVariationPoint.app <|
    .nil) <|
  .nil

/-- `writeVariationPointProxy`, `writer/arxml_writer.py:3251-3270` (the block at line 3267) -/
def writeVariationPointProxy_VariationPointProxy_L3267_5 : WB :=
  /- 3267 -/ .wrap .always k!"INTEGER-VALUE-VARIATION-POINT" (
    /- 3268 -/ writeAttributeValueVariationPoint_AttributeValueVariationPoint.app <|
    .nil) <|
  .nil

/-- `writeVariationPointProxy`, `writer/arxml_writer.py:3251-3270` (the block at line 3267) -/
def writeVariationPointProxy_VariationPointProxy_L3267_6 : WB :=
  /- 3267 -/ .wrap .always k!"POSITIVE-INTEGER-VALUE-VARIATION-POINT" (
    /- 3268 -/ writeAttributeValueVariationPoint_AttributeValueVariationPoint.app <|
    .nil) <|
  .nil

/-- `writeVariationPointProxy`, `writer/arxml_writer.py:3251-3270` (the block at line 3267) -/
def writeVariationPointProxy_VariationPointProxy_L3267_7 : WB :=
  /- 3267 -/ .wrap .always k!"TIME-VALUE-VARIATION-POINT" (
    /- 3268 -/ writeAttributeValueVariationPoint_AttributeValueVariationPoint.app <|
    .nil) <|
  .nil

/-- `writeVariationPointProxy`, `writer/arxml_writer.py:3251-3270` (the block at line 3267) -/
def writeVariationPointProxy_VariationPointProxy_L3267_8 : WB :=
  /- 3267 -/ .wrap .always k!"UNLIMITED-INTEGER-VALUE-VARIATION-POINT" (
    /- 3268 -/ writeAttributeValueVariationPoint_AttributeValueVariationPoint.app <|
    .nil) <|
  .nil

/-- `writeVariationPoint`, `writer/arxml_writer.py:800-820` -/
def writeVariationPoint_VariationPoint : WB :=
  /- 802 -/ .wrap .always k!"VARIATION-POINT" (
    /- 803 -/ .attr k!"T" .raw k!"timestamp" <|
    /- 803 -/ .attr k!"UUID" .raw k!"uuid" <|
    /- 809 -/ .prim k!"SHORT-LABEL" .getValue k!"shortLabel" <|
    /- 811 -/ .each k!"desc" [] .plain [⟨[], [], k!"setMultiLanguageOverviewParagraph_DESC_MultiLanguageOverviewParagraph"⟩] .skip <|
    /- 812 -/ .each k!"blueprintCondition" [] .plain [⟨[], [], k!"writeDocumentationBlock_BLUEPRINT_CONDITION_DocumentationBlock"⟩] .skip <|
    /- 813 -/ .each k!"formalBlueprintGenerator" [] .plain [⟨[], [], k!"writeBlueprintGenerator_BlueprintGenerator"⟩] .skip <|
    /- 814 -/ .each k!"swSyscond" [] .plain [⟨[], [], k!"writeConditionByFormula_ConditionByFormula"⟩] .skip <|
    /- 817 -/ .wrap (.any [(k!"postBuildVariantConditions", [])]) k!"POST-BUILD-VARIANT-CONDITIONS" (
      /- 819 -/ .each k!"postBuildVariantConditions" [] .plain [⟨[], [], k!"writePostBuildVariantCondition_PostBuildVariantCondition"⟩] .skip <|
      .nil) <|
    /- 820 -/ .each k!"sdg" [] .plain [⟨[], [], k!"setSdg_Sdg"⟩] .skip <|
    .nil) <|
  .nil

/-- `writeVlanMembership`, `writer/arxml_writer.py:7683-7687` -/
def writeVlanMembership_VlanMembership : WB :=
  /- 7685 -/ .wrap .always k!"VLAN-MEMBERSHIP" (
    /- 7686 -/ .prim k!"SEND-ACTIVITY" .lit k!"sendActivity" <|
    /- 7687 -/ .prim k!"VLAN-REF" .ref k!"vlanRef" <|
    .nil) <|
  .nil

/-- `writeWorstCaseHeapUsage`, `writer/arxml_writer.py:4162-4165` -/
def writeWorstCaseHeapUsage_WorstCaseHeapUsage : WB :=
  /- 4163 -/ .wrap .always k!"WORST-CASE-HEAP-USAGE" (
    /- 4164 -/ writeHeapUsage_MeasuredHeapUsage.app <|
    /- 4165 -/ .prim k!"MEMORY-CONSUMPTION" .numerical k!"memoryConsumption" <|
    .nil) <|
  .nil

end Verif.Gen.W
