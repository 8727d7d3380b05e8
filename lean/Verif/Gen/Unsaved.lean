import Verif.Model.Bst
import Verif.Model.Key
/-! Generated by `tools/gen_unsaved.py`; checked in `Verif/Props/Unsaved.lean`. -/
namespace Verif.Gen
open Verif

def unsavedTable00 : Bst (List Key) :=
 (.node (.node (.node (.node .nil
    k!"load" [k!"fileInfoComment", k!"introduction"]
    .nil)
   k!"readSd_Sd" [k!"xmlSpace"]
   (.node .nil
    k!"getGraphic_Graphic" [k!"editfit", k!"editHeight", k!"editscale", k!"editWidth", k!"fit", k!"category", k!"domain", k!"revisionLabels", k!"shortLabel"]
    .nil))
  k!"getMlFigures_MlFigure" [k!"figureCaption", k!"helpEntry", k!"pgwide", k!"verbatim", k!"chapterBreak", k!"keepWithPrevious"]
  (.node (.node .nil
    k!"getMlFormula_LGraphic" [k!"map", k!"value"]
    .nil)
   k!"getListElements_ARList" [k!"chapterBreak", k!"keepWithPrevious"]
   (.node .nil
    k!"getMlFormula_MlFormula" [k!"chapterBreak", k!"keepWithPrevious"]
    .nil)))
 k!"getValueList_ValueList" [k!"_vf"]
 (.node (.node (.node .nil
    k!"readLLongName_LLongName" [k!"blueprintValue"]
    .nil)
   k!"getDataFilter_DataFilter" [k!"max", k!"min", k!"offset", k!"period"]
   (.node .nil
    k!"getSoAdConfig_SoAdConfig" [k!"connections"]
    .nil))
  k!"getCompuScales_CompuScale" [k!"a2lDisplayText", k!"compuInverseValue"]
  (.node (.node .nil
    k!"readSdgCaption_SdgCaption" [k!"desc", k!"longName", k!"shortNameFragments"]
    .nil)
   k!"getSwValueCont_SwValueCont" [k!"unitDisplayName"]
   (.node .nil
    k!"readNmConfigNmIfEcus_NmEcu" [k!"nmCoordinator", k!"nmCycletimeMainFunction"]
    .nil))))

def unsavedTable01 : Bst (List Key) :=
 (.node (.node (.node (.node .nil
    k!"readARPackageElements_NmPdu" [k!"nmDataInformation", k!"nmVoteInformation"]
    .nil)
   k!"getCyclicTiming_CyclicTiming" [k!"adminData", k!"category", k!"desc", k!"introduction"]
   (.node .nil
    k!"readARPackageElements_HwType" [k!"hwAttributeValues", k!"hwCategoryRefs", k!"hwTypeRef"]
    .nil))
  k!"readARPackageElements_System" [k!"clientIdDefinitionSetRefs", k!"containerIPduHeaderByteOrder", k!"interpolationRoutineMappingSetRefs", k!"j1939SharedAddressClusters", k!"pncVectorLength", k!"pncVectorOffset", k!"swClusterRefs", k!"systemDocumentation"]
  (.node (.node .nil
    k!"readARPackageElements_Gateway" [k!"frameMappings"]
    .nil)
   k!"readEmphasisText_EmphasisText" [k!"font", k!"type"]
   (.node .nil
    k!"getSwAxisGrouped_SwAxisGrouped" [k!"swAxisIndex", k!"swCalprmRef"]
    .nil)))
 k!"getTargetIPduRef_TargetIPduRef" [k!"defaultValue"]
 (.node (.node (.node .nil
    k!"getTimeRangeType_TimeRangeType" [k!"tolerance"]
    .nil)
   k!"readNmClusterNmNodes_CanNmNode" [k!"allNmMessagesKeepAwake", k!"nmCarWakeUpFilterEnabled"]
   (.node .nil
    k!"readNmClusterNmNodes_UdpNmNode" [k!"allNmMessagesKeepAwake"]
    .nil))
  k!"readRptSupportData_RptComponent" [k!"adminData", k!"desc", k!"variationPoint", k!"introduction", k!"annotations", k!"longName", k!"shortNameFragments"]
  (.node (.node .nil
    k!"getAnyInstanceRef_AnyInstanceRef" [k!"atpBaseRef", k!"atpContextElementRefs", k!"atpTargetRef"]
    .nil)
   k!"getSdServerConfig_SdServerConfig" [k!"capabilityRecords"]
   .nil)))

def unsavedTable02 : Bst (List Key) :=
 .node unsavedTable00 k!"getIPduMappings_IPduMapping" [k!"introduction", k!"pdurTpChunkSize"] unsavedTable01

def unsavedTable03 : Bst (List Key) :=
 (.node (.node (.node (.node .nil
    k!"readLinTpConfigTpNodes_LinTpNode" [k!"maxNumberOfRespPendingFrames"]
    .nil)
   k!"readMcSupportData_McDataInstance" [k!"adminData", k!"desc", k!"variationPoint", k!"introduction", k!"annotations", k!"longName", k!"shortNameFragments"]
   (.node .nil
    k!"readReferenceBases_ReferenceBase" [k!"globalElements", k!"globalInPackageRefs"]
    .nil))
  k!"readSystemMappings_SystemMapping" [k!"applicationPartitionToEcuPartitionMappings", k!"appOsTaskProxyToEcuTaskProxyMappings", k!"comManagementMappings", k!"cryptoServiceMappings", k!"ddsISignalToTopicMappings", k!"j1939ControllerApplicationToJ1939NmNodeMappings", k!"mappingConstraints", k!"pncMappings", k!"portElementToComResourceMappings", k!"resourceEstimations", k!"resourceToApplicationPartitionMappings", k!"rteEventSeparations", k!"rteEventToOsTaskProxyMappings", k!"signalPathConstraints", k!"softwareClusterToApplicationPartitionMappings", k!"softwareClusterToResourceMappings", k!"swClusterMappings", k!"swcToApplicationPartitionMappings", k!"systemSignalGroupToComResourceMappings", k!"systemSignalToComResourceMappings"]
  (.node (.node .nil
    k!"getISignalMappings_ISignalMapping" [k!"introduction"]
    .nil)
   k!"readARPackageElements_CompuMethod" [k!"displayFormat"]
   (.node .nil
    k!"readARPackageElements_EcuInstance" [k!"clientIdRange", k!"dltConfig", k!"doIpConfig", k!"partitions"]
    .nil)))
 k!"readARPackageElements_ISignalIPdu" [k!"containedIPduProps", k!"hasDynamicLength"]
 (.node (.node (.node .nil
    k!"readARPackageElements_SecuredIPdu" [k!"dynamicRuntimeLengthHandling", k!"useSecuredPduHeader"]
    .nil)
   k!"readMcDataInstance_SwDataDefProps" [k!"displayPresentation", k!"stepSize", k!"swValueBlockSizeMults", k!"annotations", k!"swAddrMethodRef", k!"swAlignment", k!"baseTypeRef", k!"swBitRepresentation", k!"swCalibrationAccess", k!"swValueBlockSize", k!"swCalprmAxisSet", k!"swTextProps", k!"swComparisonVariables", k!"compuMethodRef", k!"dataConstrRef", k!"swDataDependency", k!"displayFormat", k!"implementationDataTypeRef", k!"swHostVariable", k!"swImplPolicy", k!"additionalNativeTypeQualifier", k!"swIntendedResolution", k!"swInterpolationMethod", k!"invalidValue", k!"swIsVirtual", k!"swPointerTargetProps", k!"swRecordLayoutRef", k!"swRefreshTiming", k!"unitRef", k!"valueAxisDataTypeRef"]
   (.node .nil
    k!"getLifeCyclePeriod_LifeCyclePeriod" [k!"date", k!"productRelease"]
    .nil))
  k!"getSwRecordLayoutV_SwRecordLayoutV" [k!"desc", k!"swGenericAxisParamTypeRef", k!"swRecordLayoutVFixValue"]
  (.node (.node .nil
    k!"readInternalBehavior_ExclusiveArea" [k!"adminData", k!"desc", k!"variationPoint", k!"introduction", k!"annotations", k!"longName", k!"shortNameFragments"]
    .nil)
   k!"readNvBlockDescriptor_NvBlockNeeds" [k!"cyclicWritingPeriod", k!"selectBlockForFirstInitAll", k!"storeOnChange"]
   (.node .nil
    k!"readReceiverComSpec_VariableAccess" [k!"returnValueProvision"]
    .nil))))

def unsavedTable04 : Bst (List Key) :=
 (.node (.node (.node (.node .nil
    k!"readARPackageElements_EcucModuleDef" [k!"relatedTraceItemRef", k!"upperMultiplicityInfinite"]
    .nil)
   k!"readHwElementHwPinGroups_HwPinGroup" [k!"hwPinGroupContent"]
   (.node .nil
    k!"readNmConfigNmClusters_CanNmCluster" [k!"nmCarWakeUpBitPosition", k!"nmCarWakeUpFilterNodeId", k!"nmNodeDetectionEnabled", k!"nmNodeIdEnabled", k!"nmPncParticipation", k!"nmRepeatMsgIndEnabled"]
    .nil))
  k!"readNmConfigNmClusters_UdpNmCluster" [k!"nmNodeDetectionEnabled", k!"nmNodeIdEnabled", k!"nmPncParticipation", k!"nmRepeatMsgIndEnabled"]
  (.node (.node .nil
    k!"_readVariableAccesses_VariableAccess" [k!"scope", k!"returnValueProvision"]
    .nil)
   k!"getApplicationEntry_ApplicationEntry" [k!"introduction"]
   (.node .nil
    k!"getSocketConnection_SocketConnection" [k!"allowedIPv6ExtHeadersRef", k!"allowedTcpOptionsRef", k!"pduSocketConnectionIpdus", k!"adminData", k!"category", k!"desc", k!"introduction"]
    .nil)))
 k!"getSwAxisIndividual_SwAxisIndividual" [k!"swVariableRefs", k!"unitRef"]
 (.node (.node (.node .nil
    k!"getTextTableMapping_TextTableMapping" [k!"valuePairs"]
    .nil)
   k!"readPortPrototype_ModePortAnnotation" [k!"annotationOrigin", k!"annotationText", k!"label"]
   (.node .nil
    k!"readRptComponent_RptExecutableEntity" [k!"adminData", k!"desc", k!"variationPoint", k!"introduction", k!"annotations", k!"longName", k!"shortNameFragments"]
    .nil))
  k!"readARPackageElements_EthernetCluster" [k!"couplingPorts", k!"couplingPortStartupActiveTime", k!"couplingPortSwitchoffDelay"]
  (.node (.node .nil
    k!"readAdminDataDocRevisions_DocRevision" [k!"revisionLabelP1", k!"revisionLabelP2"]
    .nil)
   k!"getIpv6Configuration_Ipv6Configuration" [k!"dnsServerAddresses", k!"ipAddressKeepBehavior"]
   .nil)))

def unsavedTable05 : Bst (List Key) :=
 .node unsavedTable03 k!"readRptSupportData_RptServicePoint" [k!"adminData", k!"desc", k!"variationPoint", k!"introduction", k!"annotations", k!"longName", k!"shortNameFragments"] unsavedTable04

def unsavedTable06 : Bst (List Key) :=
 .node unsavedTable02 k!"readARPackageElements_Collection" [k!"collectedInstances", k!"collectionSemantics", k!"sourceInstances"] unsavedTable05

def unsavedTable07 : Bst (List Key) :=
 (.node (.node (.node (.node .nil
    k!"readARPackageElements_LifeCycleInfoSet" [k!"defaultPeriodBegin", k!"defaultPeriodEnd"]
    .nil)
   k!"readARPackageElements_TriggerInterface" [k!"isService", k!"serviceKind"]
   (.node .nil
    k!"readPortPrototype_NvDataPortAnnotation" [k!"annotationOrigin", k!"annotationText", k!"label"]
    .nil))
  k!"readRptSupportData_RptExecutionContext" [k!"adminData", k!"desc", k!"variationPoint", k!"introduction", k!"annotations", k!"longName", k!"shortNameFragments"]
  (.node (.node .nil
    k!"getTransportProtocolConfiguration_TcpTp" [k!"receiveWindowMin", k!"tcpRetransmissionTimeout"]
    .nil)
   k!"readARPackageElements_SwcImplementation" [k!"perInstanceMemorySizes", k!"requiredRTEVendor"]
   (.node .nil
    k!"readPortPrototype_TriggerPortAnnotation" [k!"annotationOrigin", k!"annotationText", k!"label"]
    .nil)))
 k!"readSwComponentTypePorts_RPortPrototype" [k!"mayBeUnconnected"]
 (.node (.node (.node .nil
    k!"getAutosarVariableRef_AutosarVariableRef" [k!"autosarVariableInImplDatatype"]
    .nil)
   k!"getEcucReferenceValue_EcucReferenceValue" [k!"isAutoValue"]
   (.node .nil
    k!"readEcuInstanceCommControllers_LinMaster" [k!"linSlaves"]
    .nil))
  k!"readHwAttributeDef_HwAttributeLiteralDef" [k!"value"]
  (.node (.node .nil
    k!"readPduToFrameMappings_PduToFrameMapping" [k!"updateIndicationBitPosition"]
    .nil)
   k!"readPortPrototype_ClientServerAnnotation" [k!"annotationOrigin", k!"annotationText", k!"label"]
   (.node .nil
    k!"readPortPrototype_DelegatedPortAnnotation" [k!"annotationOrigin", k!"annotationText", k!"label"]
    .nil))))

def unsavedTable08 : Bst (List Key) :=
 (.node (.node (.node (.node .nil
    k!"readSectionNamePrefixes_SectionNamePrefix" [k!"symbol"]
    .nil)
   k!"getCouplingPortDetails_CouplingPortDetails" [k!"defaultTrafficClass", k!"ethernetTrafficClassAssignments", k!"framePreemptionSupport", k!"globalTimeProps", k!"ratePolicies", k!"vlanTranslationTables"]
   (.node .nil
    k!"getEndToEndDescription_EndToEndDescription" [k!"dataIdNibbleOffset", k!"maxNoNewOrRepeatedData", k!"syncCounterInit"]
    .nil))
  k!"getSwRecordLayoutGroup_SwRecordLayoutGroup" [k!"desc", k!"swGenericAxisParamTypeRef", k!"swRecordLayoutComponent"]
  (.node (.node .nil
    k!"readARPackageElements_DiagnosticConnection" [k!"periodicResponseUudtRefs", k!"responseRef"]
    .nil)
   k!"readEthernetPhysicalChannelVlan_VlanConfig" [k!"adminData", k!"desc", k!"variationPoint", k!"introduction", k!"annotations", k!"longName", k!"shortNameFragments"]
   (.node .nil
    k!"readPortPrototype_SenderReceiverAnnotation" [k!"annotationOrigin", k!"annotationText", k!"label"]
    .nil)))
 k!"readFlatMapInstances_FlatInstanceDescriptor" [k!"role", k!"rtePluginProps", k!"swDataDefProps"]
 (.node (.node (.node .nil
    k!"readSoAdConfigSocketAddresses_SocketAddress" [k!"allowedIPv6ExtHeadersRef", k!"allowedTcpOptionsRef", k!"differentiatedServiceField", k!"flowLabel", k!"pathMtuDiscoveryEnabled", k!"pduCollectionMaxBufferSize", k!"pduCollectionTimeout", k!"staticSocketConnections", k!"udpChecksumHandling"]
    .nil)
   k!"readSystemMappingSwMappings_SwcToEcuMapping" [k!"controlledHwElementRef", k!"processingUnitRef"]
   (.node .nil
    k!"readARPackageElements_DiagnosticServiceTable" [k!"diagnosticServiceInstanceRefs", k!"protocolKind"]
    .nil))
  k!"readARPackageElements_PortPrototypeBlueprint" [k!"initValues", k!"providedComSpecs", k!"requiredComSpecs"]
  (.node (.node .nil
    k!"readBswInternalBehaviorEvents_BswTimingEvent" [k!"adminData", k!"desc", k!"variationPoint", k!"introduction", k!"annotations", k!"longName", k!"shortNameFragments"]
    .nil)
   k!"readLinTpConfigTpConnections_LinTpConnection" [k!"multicastRef"]
   .nil)))

def unsavedTable09 : Bst (List Key) :=
 .node unsavedTable07 k!"readPortPrototype_ParameterPortAnnotation" [k!"annotationOrigin", k!"annotationText", k!"label"] unsavedTable08

def unsavedTable10 : Bst (List Key) :=
 (.node (.node (.node (.node .nil
    k!"readSwcServiceDependency_SwcServiceDependency" [k!"diagnosticRelevance"]
    .nil)
   k!"getEcucTextualParamValue_EcucTextualParamValue" [k!"isAutoValue"]
   (.node .nil
    k!"getEventControlledTiming_EventControlledTiming" [k!"adminData", k!"category", k!"desc", k!"introduction"]
    .nil))
  k!"getMultiLanguageVerbatim_MultiLanguageVerbatim" [k!"chapterBreak", k!"keepWithPrevious"]
  (.node (.node .nil
    k!"readARPackageElements_EcucDestinationUriDefSet" [k!"adminData", k!"desc", k!"variationPoint", k!"introduction", k!"annotations", k!"longName", k!"shortNameFragments"]
    .nil)
   k!"readCouplingPortVlanMemberships_VlanMembership" [k!"defaultPriority", k!"dhcpAddressAssignment"]
   (.node .nil
    k!"readEcucContainerDefReferences_EcucReferenceDef" [k!"relatedTraceItemRef", k!"upperMultiplicityInfinite"]
    .nil)))
 k!"readPhysicalChannelPduTriggerings_PduTriggering" [k!"secOcCryptoMappingRef", k!"triggerIPduSendConditions"]
 (.node (.node (.node .nil
    k!"readSystemMappingEcuResourceMappings_ECUMapping" [k!"commControllerMappings", k!"hwPortMappings"]
    .nil)
   k!"getISignalIPduIPduTimingSpecification_IPduTiming" [k!"adminData", k!"category", k!"desc", k!"introduction"]
   (.node .nil
    k!"getInfrastructureServices_InfrastructureServices" [k!"timeSynchronization"]
    .nil))
  k!"readARPackageElements_CompositionSwComponentType" [k!"physicalDimensionMappingRef"]
  (.node (.node .nil
    k!"readBswInternalBehaviorEvents_BswBackgroundEvent" [k!"adminData", k!"desc", k!"variationPoint", k!"introduction", k!"annotations", k!"longName", k!"shortNameFragments"]
    .nil)
   k!"readBswInternalBehaviorEvents_BswModeSwitchEvent" [k!"adminData", k!"desc", k!"variationPoint", k!"introduction", k!"annotations", k!"longName", k!"shortNameFragments"]
   .nil)))

def unsavedTable11 : Bst (List Key) :=
 (.node (.node (.node (.node .nil
    k!"readEcucContainerDefParameters_EcucFloatParamDef" [k!"relatedTraceItemRef", k!"upperMultiplicityInfinite"]
    .nil)
   k!"readLifeCycleInfoSetLifeCycleInfos_LifeCycleInfo" [k!"periodEnd"]
   (.node .nil
    k!"readMcDataAccessDetails_RteEventInEcuInstanceRef" [k!"baseRef", k!"atpBaseRef", k!"atpContextElementRefs", k!"atpTargetRef"]
    .nil))
  k!"readRptExecutableEntity_RptExecutableEntityEvent" [k!"adminData", k!"desc", k!"variationPoint", k!"introduction", k!"annotations", k!"longName", k!"shortNameFragments"]
  (.node (.node .nil
    k!"getModeGroupIRef_PModeGroupInAtomicSwcInstanceRef" [k!"targetRef", k!"atpBaseRef", k!"atpContextElementRefs", k!"atpTargetRef"]
    .nil)
   k!"getModeGroupIRef_RModeGroupInAtomicSWCInstanceRef" [k!"targetRef", k!"atpBaseRef", k!"atpContextElementRefs", k!"atpTargetRef"]
   (.node .nil
    k!"getMultiLanguageParagraphs_MultiLanguageParagraph" [k!"chapterBreak", k!"keepWithPrevious"]
    .nil)))
 k!"readEcucContainerDefParameters_EcucStringParamDef" [k!"relatedTraceItemRef", k!"upperMultiplicityInfinite"]
 (.node (.node (.node .nil
    k!"readPortPrototype_IoHwAbstractionServerAnnotation" [k!"annotationOrigin", k!"annotationText", k!"label"]
    .nil)
   k!"getArrayValueSpecification_ArrayValueSpecification" [k!"intendedPartialInitializationCount"]
   (.node .nil
    k!"getEcucNumericalParamValue_EcucNumericalParamValue" [k!"isAutoValue"]
    .nil))
  k!"getModeSwitchSenderComSpec_ModeSwitchSenderComSpec" [k!"enhancedModeApi"]
  (.node (.node .nil
    k!"readBswInternalBehaviorEvents_BswDataReceivedEvent" [k!"adminData", k!"desc", k!"variationPoint", k!"introduction", k!"annotations", k!"longName", k!"shortNameFragments"]
    .nil)
   k!"readEcucContainerDefParameters_EcucBooleanParamDef" [k!"relatedTraceItemRef", k!"upperMultiplicityInfinite"]
   .nil)))

def unsavedTable12 : Bst (List Key) :=
 .node unsavedTable10 k!"readBswModuleDescriptionRequiredTriggers_Trigger" [k!"swImplPolicy", k!"triggerPeriod"] unsavedTable11

def unsavedTable13 : Bst (List Key) :=
 .node unsavedTable09 k!"readARPackageElements_SenderReceiverInterface" [k!"metaDataItemSets", k!"serviceKind"] unsavedTable12

def unsavedTable14 : Bst (List Key) :=
 .node unsavedTable06 k!"readARPackageElements_ISignalIPduGroup" [k!"nmPduRefs"] unsavedTable13

def unsavedTable15 : Bst (List Key) :=
 (.node (.node (.node (.node .nil
    k!"readEcucContainerDefParameters_EcucIntegerParamDef" [k!"relatedTraceItemRef", k!"upperMultiplicityInfinite"]
    .nil)
   k!"readEcucModuleDefContainers_EcucChoiceContainerDef" [k!"relatedTraceItemRef", k!"upperMultiplicityInfinite"]
   (.node .nil
    k!"readRunnableEntityModeAccessPoints_ModeAccessPoint" [k!"ident"]
    .nil))
  k!"readRunnableEntityModeSwitchPoints_ModeSwitchPoint" [k!"returnValueProvision", k!"adminData", k!"desc", k!"variationPoint", k!"introduction", k!"annotations", k!"longName", k!"shortNameFragments"]
  (.node (.node .nil
    k!"readBswModuleEntityDataSendPoints_BswVariableAccess" [k!"contextLimitationRefs"]
    .nil)
   k!"readDoIpTpConfigDoIpLogicAddresses_DoIpLogicAddress" [k!"doIpLogicAddressProps"]
   (.node .nil
    k!"readEcuInstanceConnectors_CanCommunicationConnector" [k!"pncWakeupCanId", k!"pncWakeupCanIdExtended", k!"pncWakeupCanIdMask", k!"pncWakeupDataMask", k!"pncWakeupDlc", k!"createEcuWakeupSource", k!"dynamicPncToChannelMappingEnabled", k!"pncFilterArrayMasks"]
    .nil)))
 k!"readEcuInstanceConnectors_LinCommunicationConnector" [k!"initialNad", k!"linConfigurableFrames", k!"linOrderedConfigurableFrames", k!"scheduleChangeNextTimeBase", k!"createEcuWakeupSource", k!"dynamicPncToChannelMappingEnabled", k!"pncFilterArrayMasks"]
 (.node (.node (.node .nil
    k!"readPOperationIRef_POperationInAtomicSwcInstanceRef" [k!"baseRef", k!"contextPortRef", k!"targetOperationRef", k!"atpBaseRef", k!"atpContextElementRefs", k!"atpTargetRef"]
    .nil)
   k!"readROperationIRef_ROperationInAtomicSwcInstanceRef" [k!"baseRef", k!"contextPortRef", k!"targetOperationRef", k!"atpBaseRef", k!"atpContextElementRefs", k!"atpTargetRef"]
   (.node .nil
    k!"readRunnableEntityParameterAccesses_ParameterAccess" [k!"swDataDefProps", k!"returnValueProvision"]
    .nil))
  k!"readSwcInternalBehaviorPortAPIOptions_PortAPIOption" [k!"supportedFeatures", k!"transformerStatusForwarding"]
  (.node (.node .nil
    k!"getCanClusterBusOffRecovery_CanClusterBusOffRecovery" [k!"borTimeTxEnsured", k!"mainFunctionPeriod"]
    .nil)
   k!"readBswInternalBehaviorEvents_BswModeSwitchedAckEvent" [k!"adminData", k!"desc", k!"variationPoint", k!"introduction", k!"annotations", k!"longName", k!"shortNameFragments"]
   (.node .nil
    k!"readEcucContainerDefReferences_EcucChoiceReferenceDef" [k!"relatedTraceItemRef", k!"upperMultiplicityInfinite"]
    .nil))))

def unsavedTable16 : Bst (List Key) :=
 (.node (.node (.node (.node .nil
    k!"readModeDeclarationGroupModeTransition_ModeTransition" [k!"adminData", k!"desc", k!"variationPoint", k!"introduction", k!"annotations", k!"longName", k!"shortNameFragments"]
    .nil)
   k!"getBswServiceDependencyIdent_BswServiceDependencyIdent" [k!"adminData", k!"desc", k!"variationPoint", k!"introduction", k!"annotations", k!"longName", k!"shortNameFragments"]
   (.node .nil
    k!"readBswInternalBehaviorEvents_BswModeManagerErrorEvent" [k!"adminData", k!"desc", k!"variationPoint", k!"introduction", k!"annotations", k!"longName", k!"shortNameFragments"]
    .nil))
  k!"readBswInternalBehaviorEvents_BswOperationInvokedEvent" [k!"adminData", k!"desc", k!"variationPoint", k!"introduction", k!"annotations", k!"longName", k!"shortNameFragments"]
  (.node (.node .nil
    k!"readEcucContainerDefParameters_EcucEnumerationParamDef" [k!"relatedTraceItemRef", k!"upperMultiplicityInfinite"]
    .nil)
   k!"readMcDataAccessDetails_VariableAccessInEcuInstanceRef" [k!"baseRef", k!"atpBaseRef", k!"atpContextElementRefs", k!"atpTargetRef"]
   (.node .nil
    k!"readPhysicalChannelFrameTriggerings_CanFrameTriggering" [k!"absolutelyScheduledTimings", k!"canXlFrameTriggeringProps", k!"j1939requestable", k!"rxMask", k!"txMask"]
    .nil)))
 k!"readPortInterfaceMappings_ClientServerInterfaceMapping" [k!"errorMappings"]
 (.node (.node (.node .nil
    k!"readSoAdConfigConnectionBundles_SocketConnectionBundle" [k!"differentiatedServiceField", k!"flowLabel", k!"pathMtuDiscoveryEnabled", k!"pdus", k!"udpChecksumHandling", k!"shortNameFragments"]
    .nil)
   k!"readBswServiceDependencyServiceNeeds_CryptoServiceNeeds" [k!"algorithmFamily", k!"algorithmMode", k!"cryptoKeyDescription"]
   (.node .nil
    k!"readBswServiceDependencyServiceNeeds_ObdPidServiceNeeds" [k!"audiences", k!"diagRequirement", k!"securityAccessLevel"]
    .nil))
  k!"readCommunicationConnectorEcuCommPortInstances_IPduPort" [k!"iPduSignalProcessing", k!"timestampRxAcceptanceWindow"]
  (.node (.node .nil
    k!"readEcuInstanceConnectors_FlexrayCommunicationConnector" [k!"nmReadySleepTime", k!"pncFilterDataMask", k!"wakeUpChannel", k!"createEcuWakeupSource", k!"dynamicPncToChannelMappingEnabled", k!"pncFilterArrayMasks"]
    .nil)
   k!"readEcucContainerDefReferences_EcucInstanceReferenceDef" [k!"relatedTraceItemRef", k!"upperMultiplicityInfinite"]
   .nil)))

def unsavedTable17 : Bst (List Key) :=
 .node unsavedTable15 k!"readEcucModuleDefContainers_EcucParamConfContainerDef" [k!"relatedTraceItemRef", k!"upperMultiplicityInfinite"] unsavedTable16

def unsavedTable18 : Bst (List Key) :=
 (.node (.node (.node (.node .nil
    k!"getEcucInstanceReferenceValue_EcucInstanceReferenceValue" [k!"isAutoValue"]
    .nil)
   k!"readBswServiceDependencyServiceNeeds_ObdInfoServiceNeeds" [k!"audiences", k!"diagRequirement", k!"securityAccessLevel"]
   (.node .nil
    k!"readEcuInstanceConnectors_EthernetCommunicationConnector" [k!"ethIpPropsRef", k!"neighborCacheSize", k!"pathMtuEnabled", k!"pathMtuTimeout", k!"createEcuWakeupSource", k!"dynamicPncToChannelMappingEnabled", k!"pncFilterArrayMasks"]
    .nil))
  k!"readExclusiveAreaNestingOrders_ExclusiveAreaNestingOrder" [k!"shortNameFragments"]
  (.node (.node .nil
    k!"readSocketAddressApplicationEndpoint_ApplicationEndpoint" [k!"maxNumberOfConnections", k!"tlsCryptoMappingRef", k!"adminData", k!"desc", k!"variationPoint", k!"introduction", k!"annotations", k!"longName", k!"shortNameFragments"]
    .nil)
   k!"readBswServiceDependencyServiceNeeds_DiagnosticEventNeeds" [k!"audiences", k!"diagRequirement", k!"securityAccessLevel"]
   (.node .nil
    k!"readBswServiceDependencyServiceNeeds_DiagnosticValueNeeds" [k!"audiences", k!"diagRequirement", k!"securityAccessLevel"]
    .nil)))
 k!"readBswServiceDependencyServiceNeeds_ObdRatioServiceNeeds" [k!"audiences", k!"diagRequirement", k!"securityAccessLevel"]
 (.node (.node (.node .nil
    k!"readDiagEventDebounceAlgorithm_DiagEventDebounceTimeBased" [k!"timeBasedFdcThresholdStorageValue", k!"timeFailedThreshold", k!"timePassedThreshold"]
    .nil)
   k!"readHwDescriptionEntityHwAttributeValues_HwAttributeValue" [k!"value"]
   (.node .nil
    k!"readSynchronousServerCallPoint_SynchronousServerCallPoint" [k!"calledFromWithinExclusiveAreaRef", k!"returnValueProvision"]
    .nil))
  k!"getRModeInAtomicSwcInstanceRef_RModeInAtomicSwcInstanceRef" [k!"atpBaseRef", k!"atpContextElementRefs", k!"atpTargetRef"]
  (.node (.node .nil
    k!"getTransmissionModeDeclaration_TransmissionModeDeclaration" [k!"modeDrivenFalseConditions", k!"modeDrivenTrueConditions"]
    .nil)
   k!"readCommunicationConnectorEcuCommPortInstances_ISignalPort" [k!"dataFilter", k!"ddsQosProfileRef", k!"firstTimeout", k!"handleInvalid"]
   .nil)))

def unsavedTable19 : Bst (List Key) :=
 (.node (.node (.node (.node .nil
    k!"readAsynchronousServerCallPoint_AsynchronousServerCallPoint" [k!"returnValueProvision"]
    .nil)
   k!"readBswModuleEntityCallPoints_BswSynchronousServerCallPoint" [k!"calledFromWithinExclusiveAreaRef", k!"contextLimitationRefs"]
   (.node .nil
    k!"readBswServiceDependencyServiceNeeds_DiagnosticRoutineNeeds" [k!"audiences", k!"diagRequirement", k!"securityAccessLevel"]
    .nil))
  k!"readBswServiceDependencyServiceNeeds_ObdControlServiceNeeds" [k!"audiences", k!"diagRequirement", k!"securityAccessLevel"]
  (.node (.node .nil
    k!"readBswServiceDependencyServiceNeeds_ObdMonitorServiceNeeds" [k!"audiences", k!"diagRequirement", k!"securityAccessLevel"]
    .nil)
   k!"readCommunicationClusterPhysicalChannels_CanPhysicalChannel" [k!"managedPhysicalChannelRefs"]
   (.node .nil
    k!"readCommunicationClusterPhysicalChannels_LinPhysicalChannel" [k!"busIdleTimeoutPeriod", k!"managedPhysicalChannelRefs"]
    .nil)))
 k!"readEcucContainerDefReferences_EcucSymbolicNameReferenceDef" [k!"relatedTraceItemRef", k!"upperMultiplicityInfinite"]
 (.node (.node (.node .nil
    k!"readEthernetPhysicalChannelNetworkEndPoints_NetworkEndpoint" [k!"fullyQualifiedDomainName", k!"ipSecConfig"]
    .nil)
   k!"readRModeInAtomicSwcInstanceRef_RModeInAtomicSwcInstanceRef" [k!"baseRef", k!"atpBaseRef", k!"atpContextElementRefs", k!"atpTargetRef"]
   (.node .nil
    k!"readSystemMappingDataMappings_SenderReceiverToSignalMapping" [k!"senderToSignalTextTableMapping", k!"signalToReceiverTextTableMapping", k!"introduction"]
    .nil))
  k!"getComponentInSystemInstanceRef_ComponentInSystemInstanceRef" [k!"contextComponentRefs", k!"atpBaseRef", k!"atpContextElementRefs", k!"atpTargetRef"]
  (.node (.node .nil
    k!"readBswModuleEntityCallPoints_BswAsynchronousServerCallPoint" [k!"contextLimitationRefs"]
    .nil)
   k!"readDiagEventDebounceAlgorithm_DiagEventDebounceCounterBased" [k!"counterBasedFdcThresholdStorageValue", k!"counterDecrementStepSize", k!"counterFailedThreshold", k!"counterIncrementStepSize", k!"counterJumpDown", k!"counterJumpDownValue", k!"counterJumpUp", k!"counterJumpUpValue", k!"counterPassedThreshold"]
   .nil)))

def unsavedTable20 : Bst (List Key) :=
 .node unsavedTable18 k!"readEcucContainerDefParameters_EcucMultilineStringParamDef" [k!"relatedTraceItemRef", k!"upperMultiplicityInfinite"] unsavedTable19

def unsavedTable21 : Bst (List Key) :=
 .node unsavedTable17 k!"readModeDeclarationGroupModeDeclaration_ModeDeclaration" [k!"adminData", k!"desc", k!"variationPoint", k!"introduction", k!"annotations", k!"longName", k!"shortNameFragments"] unsavedTable20

def unsavedTable22 : Bst (List Key) :=
 (.node (.node (.node (.node .nil
    k!"readBswInternalBehaviorEvents_BswInternalTriggerOccurredEvent" [k!"adminData", k!"desc", k!"variationPoint", k!"introduction", k!"annotations", k!"longName", k!"shortNameFragments"]
    .nil)
   k!"readBswServiceDependencyServiceNeeds_DiagnosticEventInfoNeeds" [k!"obdDtcNumber", k!"audiences", k!"diagRequirement", k!"securityAccessLevel"]
   (.node .nil
    k!"readBswServiceDependencyServiceNeeds_DiagnosticIoControlNeeds" [k!"audiences", k!"diagRequirement", k!"securityAccessLevel"]
    .nil))
  k!"readEcucEnumerationParamDefLiterals_EcucEnumerationLiteralDef" [k!"ecucCond"]
  (.node (.node .nil
    k!"readEthernetCommunicationControllerCouplingPorts_CouplingPort" [k!"connectionNegotiationBehavior", k!"couplingPortRole", k!"defaultVlanRef", k!"macAddressVlanAssignments", k!"macMulticastAddressRefs", k!"macSecProps", k!"physicalLayerType", k!"plcaProps", k!"pncMappingRefs", k!"receiveActivity", k!"wakeupSleepOnDatalineConfigRef"]
    .nil)
   k!"getApplicationValueSpecification_ApplicationValueSpecification" [k!"swAxisCont"]
   (.node .nil
    k!"readApplicationRecordDataTypeElements_ApplicationRecordElement" [k!"isOptional"]
    .nil)))
 k!"readEcuInstanceCommControllers_EthernetCommunicationController" [k!"canXlConfigRef", k!"macLayerType", k!"macUnicastAddress", k!"maximumReceiveBufferLength", k!"maximumTransmitBufferLength", k!"slaveActAsPassiveCommunicationSlave", k!"slaveQualifiedUnexpectedLinkDownTime"]
 (.node (.node (.node .nil
    k!"readBswInternalBehaviorServiceDependencies_BswServiceDependency" [k!"diagnosticRelevance"]
    .nil)
   k!"readCommunicationClusterPhysicalChannels_FlexrayPhysicalChannel" [k!"managedPhysicalChannelRefs"]
   (.node .nil
    k!"getSocketConnectionIpduIdentifier_SocketConnectionIpduIdentifier" [k!"pduCollectionPduTimeout", k!"routingGroupRefs"]
    .nil))
  k!"getTransformationComSpecProps_EndToEndTransformationComSpecProps" [k!"clearFromValidToInvalid", k!"disableEndToEndCheck", k!"disableEndToEndStateMachine", k!"e2eProfileCompatibilityPropsRef", k!"maxDeltaCounter", k!"maxErrorStateInit", k!"maxErrorStateInvalid", k!"maxErrorStateValid", k!"maxNoNewOrRepeatedData", k!"minOkStateInit", k!"minOkStateInvalid", k!"minOkStateValid", k!"syncCounterInit", k!"windowSizeInit", k!"windowSizeInvalid", k!"windowSizeValid", k!"adminData", k!"category", k!"desc", k!"introduction"]
  (.node (.node .nil
    k!"readAtomicSwComponentTypeSwcInternalBehavior_SwcInternalBehavior" [k!"includedDataTypeSets"]
    .nil)
   k!"readBswModuleDescriptionBswInternalBehaviors_BswInternalBehavior" [k!"arTypedPerInstanceMemories", k!"bswPerInstanceMemoryPolicies", k!"clientPolicies", k!"distinguishedPartitions", k!"exclusiveAreaPolicies", k!"internalTriggeringPointPolicies", k!"parameterPolicies", k!"perInstanceParameters", k!"releasedTriggerPolicies", k!"schedulerNamePrefixes", k!"sendPolicies", k!"triggerDirectImplementations", k!"variationPointProxies", k!"includedDataTypeSets"]
   (.node .nil
    k!"readCommunicationClusterPhysicalChannels_EthernetPhysicalChannel" [k!"managedPhysicalChannelRefs"]
    .nil))))

def unsavedTable23 : Bst (List Key) :=
 (.node (.node (.node (.node .nil
    k!"readSystemMappingDataMappings_SenderReceiverToSignalGroupMapping" [k!"introduction"]
    .nil)
   k!"readAssemblySwConnectorProviderIRef_PPortInCompositionInstanceRef" [k!"abstractContextComponentRef", k!"baseRef", k!"targetPortRef", k!"atpBaseRef", k!"atpContextElementRefs", k!"atpTargetRef"]
   (.node .nil
    k!"readBswModuleDescriptionBswModuleDependencies_BswModuleDependency" [k!"adminData", k!"desc", k!"variationPoint", k!"introduction", k!"annotations", k!"longName", k!"shortNameFragments"]
    .nil))
  k!"readConsumedServiceInstanceConsumedEventGroups_ConsumedEventGroup" [k!"autoRequire", k!"eventMulticastAddressRefs", k!"pduActivationRoutingGroups", k!"priority", k!"sdClientTimerConfigRef"]
  (.node (.node .nil
    k!"readAssemblySwConnectorRequesterIRef_RPortInCompositionInstanceRef" [k!"abstractContextComponentRef", k!"baseRef", k!"targetPortRef", k!"atpBaseRef", k!"atpContextElementRefs", k!"atpTargetRef"]
    .nil)
   k!"readBswServiceDependencyServiceNeeds_DiagnosticOperationCycleNeeds" [k!"audiences", k!"diagRequirement", k!"securityAccessLevel"]
   (.node .nil
    k!"readRunnableEntityInternalTriggeringPoints_InternalTriggeringPoint" [k!"swImplPolicy", k!"returnValueProvision", k!"adminData", k!"desc", k!"variationPoint", k!"introduction", k!"annotations", k!"longName", k!"shortNameFragments"]
    .nil)))
 k!"readTransformationComSpecPropss_EndToEndTransformationComSpecProps" [k!"adminData", k!"category", k!"desc", k!"introduction"]
 (.node (.node (.node .nil
    k!"getIncludedModeDeclarationGroupSets_IncludedModeDeclarationGroupSet" [k!"prefix"]
    .nil)
   k!"getTransformationComSpecProps_UserDefinedTransformationComSpecProps" [k!"adminData", k!"category", k!"desc", k!"introduction"]
   (.node .nil
    k!"readBswInternalBehaviorEvents_BswAsynchronousServerCallReturnsEvent" [k!"adminData", k!"desc", k!"variationPoint", k!"introduction", k!"annotations", k!"longName", k!"shortNameFragments"]
    .nil))
  k!"readBswServiceDependencyServiceNeeds_DiagnosticEnableConditionNeeds" [k!"audiences", k!"diagRequirement", k!"securityAccessLevel"]
  (.node (.node .nil
    k!"readImplementationDataTypeSubElements_ImplementationDataTypeElement" [k!"arrayImplPolicy", k!"isOptional"]
    .nil)
   k!"readPortGroupInnerGroupIRefs_InnerPortGroupInCompositionInstanceRef" [k!"baseRef", k!"contextRefs", k!"atpBaseRef", k!"atpContextElementRefs", k!"atpTargetRef"]
   .nil)))

def unsavedTable24 : Bst (List Key) :=
 .node unsavedTable22 k!"readSwcBswSynchronizedTrigger_PTriggerInAtomicSwcTypeInstanceRef" [k!"baseRef", k!"contextPortRef", k!"targetRef", k!"atpBaseRef", k!"atpContextElementRefs", k!"atpTargetRef"] unsavedTable23

def unsavedTable25 : Bst (List Key) :=
 (.node (.node (.node (.node .nil
    k!"readBswServiceDependencyServiceNeeds_DiagnosticStorageConditionNeeds" [k!"audiences", k!"diagRequirement", k!"securityAccessLevel"]
    .nil)
   k!"readDelegationSwConnectorInnerPortIRef_PPortInCompositionInstanceRef" [k!"abstractContextComponentRef", k!"baseRef", k!"targetPortRef", k!"atpBaseRef", k!"atpContextElementRefs", k!"atpTargetRef"]
   (.node .nil
    k!"readDelegationSwConnectorInnerPortIRef_RPortInCompositionInstanceRef" [k!"abstractContextComponentRef", k!"baseRef", k!"targetPortRef", k!"atpBaseRef", k!"atpContextElementRefs", k!"atpTargetRef"]
    .nil))
  k!"readInstantiationRTEEventProps_InstanceEventInCompositionInstanceRef" [k!"baseRef", k!"atpBaseRef", k!"atpContextElementRefs", k!"atpTargetRef"]
  (.node (.node .nil
    k!"readBswServiceDependencyServiceNeeds_DtcStatusChangeNotificationNeeds" [k!"notificationTime", k!"audiences", k!"diagRequirement", k!"securityAccessLevel"]
    .nil)
   k!"readCouplingPortDetailsCouplingPortStructuralElements_CouplingPortFifo" [k!"assignedTrafficClasses", k!"minimumFifoLength", k!"shaper", k!"trafficClassPreemptionSupport"]
   (.node .nil
    k!"readRunnableEntityExternalTriggeringPoints_ExternalTriggeringPointIdent" [k!"adminData", k!"desc", k!"variationPoint", k!"introduction", k!"annotations", k!"longName", k!"shortNameFragments"]
    .nil)))
 k!"getVariableInAtomicSWCTypeInstanceRef_VariableInAtomicSWCTypeInstanceRef" [k!"baseRef", k!"contextDataPrototypeRefs", k!"rootVariableDataPrototypeRef", k!"atpBaseRef", k!"atpContextElementRefs", k!"atpTargetRef"]
 (.node (.node (.node .nil
    k!"readBswServiceDependencyServiceNeeds_DiagnosticCommunicationManagerNeeds" [k!"audiences", k!"diagRequirement", k!"securityAccessLevel"]
    .nil)
   k!"readISignalTransformationISignalProps_EndToEndTransformationISignalProps" [k!"maxDataLength", k!"minDataLength", k!"sourceId"]
   (.node .nil
    k!"getParameterInAtomicSWCTypeInstanceRef_ParameterInAtomicSWCTypeInstanceRef" [k!"baseRef", k!"atpBaseRef", k!"atpContextElementRefs", k!"atpTargetRef"]
    .nil))
  k!"readBswInternalBehaviorInternalTriggeringPoints_BswInternalTriggeringPoint" [k!"swImplPolicy"]
  (.node (.node .nil
    k!"readCouplingPortDetailsCouplingPortStructuralElements_CouplingPortScheduler" [k!"predecessorRefs"]
    .nil)
   k!"readSignalServiceTranslationEventProps_SignalServiceTranslationElementProps" [k!"element"]
   .nil)))

def unsavedTable26 : Bst (List Key) :=
 (.node (.node (.node (.node .nil
    k!"readClientServerInterfaceMappingOperationMappings_ClientServerOperationMapping" [k!"argumentMappings", k!"firstToSecondDataTransformationRef"]
    .nil)
   k!"readSenderRecArrayTypeMappingRecordElementMapping_SenderRecRecordElementMapping" [k!"complexTypeMapping", k!"senderToSignalTextTableMapping", k!"signalToReceiverTextTableMapping"]
   (.node .nil
    k!"readCouplingPortDetailsEthernetPriorityRegenerations_EthernetPriorityRegeneration" [k!"shortNameFragments"]
    .nil))
  k!"readRunnableEntityGroupRunnableEntityIRefs_RunnableEntityInCompositionInstanceRef" [k!"baseRef", k!"atpBaseRef", k!"atpContextElementRefs", k!"atpTargetRef"]
  (.node (.node .nil
    k!"readDataPrototypeInPortInterfaceRef_DataPrototypeInClientServerInterfaceInstanceRef" [k!"atpBaseRef", k!"atpContextElementRefs", k!"atpTargetRef", k!"dataPrototypeInClientServerInterface", k!"tagId"]
    .nil)
   k!"readSocketAddressApplicationEndpointProvidedServiceInstance_ProvidedServiceInstance" [k!"capabilityRecords", k!"majorVersion", k!"methodActivationRoutingGroup", k!"routingGroupRefs"]
   (.node .nil
    k!"getCanControllerFdConfigurationRequirements_CanControllerFdConfigurationRequirements" [k!"paddingValue"]
    .nil)))
 k!"getVariableDataPrototypeInSystemInstanceRef_VariableDataPrototypeInSystemInstanceRef" [k!"baseRef", k!"atpBaseRef", k!"atpContextElementRefs", k!"atpTargetRef"]
 (.node (.node (.node .nil
    k!"readSocketAddressApplicationEndpointConsumedServiceInstances_ConsumedServiceInstance" [k!"allowedServiceProviderRefs", k!"autoRequire", k!"blocklistedVersions", k!"eventMulticastSubscriptionAddressRef", k!"instanceIdentifier", k!"localUnicastAddressRefs", k!"minorVersion", k!"remoteUnicastAddressRefs", k!"sdClientTimerConfigRef", k!"serviceIdentifier", k!"versionDrivenFindBehavior", k!"capabilityRecords", k!"majorVersion", k!"methodActivationRoutingGroup", k!"routingGroupRefs"]
    .nil)
   k!"readRunnableEntityAsynchronousServerCallResultPoint_AsynchronousServerCallResultPoint" [k!"returnValueProvision"]
   (.node .nil
    k!"readDataPrototypeGroupImplicitDataAccessIRefs_VariableDataPrototypeInCompositionInstanceRef" [k!"baseRef", k!"atpBaseRef", k!"atpContextElementRefs", k!"atpTargetRef"]
    .nil))
  k!"readDataPrototypeGroupDataPrototypeGroupIRefs_InnerDataPrototypeGroupInCompositionInstanceRef" [k!"baseRef", k!"atpBaseRef", k!"atpContextElementRefs", k!"atpTargetRef"]
  (.node (.node .nil
    k!"readRunnableEntityGroupRunnableEntityGroupIRefs_InnerRunnableEntityGroupInCompositionInstanceRef" [k!"baseRef", k!"atpBaseRef", k!"atpContextElementRefs", k!"atpTargetRef"]
    .nil)
   k!"getApplicationCompositeElementInPortInterfaceInstanceRef_ApplicationCompositeElementInPortInterfaceInstanceRef" [k!"baseRef", k!"contextDataPrototypeRef", k!"atpBaseRef", k!"atpContextElementRefs", k!"atpTargetRef"]
   .nil)))

def unsavedTable27 : Bst (List Key) :=
 .node unsavedTable25 k!"getModeInBswModuleDescriptionInstanceRef_ModeInBswModuleDescriptionInstanceRef" [k!"baseRef", k!"atpBaseRef", k!"atpContextElementRefs", k!"atpTargetRef"] unsavedTable26

def unsavedTable28 : Bst (List Key) :=
 .node unsavedTable24 k!"readRVariableInAtomicSwcInstanceRef_RVariableInAtomicSwcInstanceRef" [k!"atpBaseRef", k!"atpContextElementRefs", k!"atpTargetRef"] unsavedTable27

def unsavedTable29 : Bst (List Key) :=
 .node unsavedTable21 k!"readBswInternalBehaviorEvents_BswExternalTriggerOccurredEvent" [k!"adminData", k!"desc", k!"variationPoint", k!"introduction", k!"annotations", k!"longName", k!"shortNameFragments"] unsavedTable28

def unsavedTable30 : Bst (List Key) :=
 .node unsavedTable14 k!"readEcucContainerDefParameters_EcucFunctionNameDef" [k!"relatedTraceItemRef", k!"upperMultiplicityInfinite"] unsavedTable29

/-- for methods of the reader: attributes for which the class has a set or add method, and that are not read -/
def unsavedTable : Bst (List Key) := unsavedTable30

def unwrittenBy00 : Bst (List Key) :=
 (.node (.node (.node (.node (.node .nil
     k!"_vf" [k!"ValueList"]
     .nil)
    k!"fit" [k!"Graphic"]
    .nil)
   k!"map" [k!"LGraphic"]
   (.node .nil
    k!"max" [k!"DataFilter"]
    .nil))
  k!"min" [k!"DataFilter"]
  (.node (.node (.node .nil
     k!"font" [k!"EmphasisText"]
     .nil)
    k!"pdus" [k!"SocketConnectionBundle"]
    .nil)
   k!"period" [k!"DataFilter"]
   (.node .nil
    k!"rxMask" [k!"CanFrameTriggering"]
    .nil)))
 k!"shaper" [k!"CouplingPortFifo"]
 (.node (.node (.node (.node .nil
     k!"txMask" [k!"CanFrameTriggering"]
     .nil)
    k!"editfit" [k!"Graphic"]
    .nil)
   k!"element" [k!"SignalServiceTranslationElementProps"]
   (.node .nil
    k!"ecucCond" [k!"EcucEnumerationLiteralDef"]
    .nil))
  k!"sourceId" [k!"EndToEndTransformationISignalProps"]
  (.node (.node .nil
    k!"audiences" [k!"ObdPidServiceNeeds", k!"ObdInfoServiceNeeds", k!"DiagnosticEventNeeds", k!"DiagnosticValueNeeds", k!"ObdRatioServiceNeeds", k!"DiagnosticRoutineNeeds", k!"ObdControlServiceNeeds", k!"ObdMonitorServiceNeeds", k!"DiagnosticEventInfoNeeds", k!"DiagnosticIoControlNeeds", k!"DiagnosticOperationCycleNeeds", k!"DiagnosticEnableConditionNeeds", k!"DiagnosticStorageConditionNeeds", k!"DtcStatusChangeNotificationNeeds", k!"DiagnosticCommunicationManagerNeeds"]
    .nil)
   k!"dltConfig" [k!"EcuInstance"]
   (.node .nil
    k!"editWidth" [k!"Graphic"]
    .nil))))

def unwrittenBy01 : Bst (List Key) :=
 (.node (.node (.node (.node (.node .nil
     k!"flowLabel" [k!"SocketAddress", k!"SocketConnectionBundle"]
     .nil)
    k!"hwTypeRef" [k!"HwType"]
    .nil)
   k!"isService" [k!"TriggerInterface"]
   (.node .nil
    k!"linSlaves" [k!"LinMaster"]
    .nil))
  k!"nmPduRefs" [k!"ISignalIPduGroup"]
  (.node (.node (.node .nil
     k!"periodEnd" [k!"LifeCycleInfo"]
     .nil)
    k!"plcaProps" [k!"CouplingPort"]
    .nil)
   k!"tolerance" [k!"TimeRangeType"]
   (.node .nil
    k!"atpBaseRef" [k!"AnyInstanceRef", k!"RteEventInEcuInstanceRef", k!"PModeGroupInAtomicSwcInstanceRef", k!"RModeGroupInAtomicSWCInstanceRef", k!"POperationInAtomicSwcInstanceRef", k!"ROperationInAtomicSwcInstanceRef", k!"VariableAccessInEcuInstanceRef", k!"RModeInAtomicSwcInstanceRef", k!"ComponentInSystemInstanceRef", k!"PTriggerInAtomicSwcTypeInstanceRef", k!"PPortInCompositionInstanceRef", k!"RPortInCompositionInstanceRef", k!"InnerPortGroupInCompositionInstanceRef", k!"RVariableInAtomicSwcInstanceRef", k!"InstanceEventInCompositionInstanceRef", k!"VariableInAtomicSWCTypeInstanceRef", k!"ParameterInAtomicSWCTypeInstanceRef", k!"ModeInBswModuleDescriptionInstanceRef", k!"RunnableEntityInCompositionInstanceRef", k!"DataPrototypeInClientServerInterfaceInstanceRef", k!"VariableDataPrototypeInSystemInstanceRef", k!"VariableDataPrototypeInCompositionInstanceRef", k!"InnerDataPrototypeGroupInCompositionInstanceRef", k!"InnerRunnableEntityGroupInCompositionInstanceRef", k!"ApplicationCompositeElementInPortInterfaceInstanceRef"]
    .nil)))
 k!"doIpConfig" [k!"EcuInstance"]
 (.node (.node (.node (.node .nil
     k!"editHeight" [k!"Graphic"]
     .nil)
    k!"initValues" [k!"PortPrototypeBlueprint"]
    .nil)
   k!"initialNad" [k!"LinCommunicationConnector"]
   (.node .nil
    k!"isOptional" [k!"ApplicationRecordElement", k!"ImplementationDataTypeElement"]
    .nil))
  k!"partitions" [k!"EcuInstance"]
  (.node (.node .nil
    k!"swAxisCont" [k!"ApplicationValueSpecification"]
    .nil)
   k!"valuePairs" [k!"TextTableMapping"]
   (.node .nil
    k!"autoRequire" [k!"ConsumedEventGroup", k!"ConsumedServiceInstance"]
    .nil))))

def unwrittenBy02 : Bst (List Key) :=
 .node unwrittenBy00 k!"editscale" [k!"Graphic"] unwrittenBy01

def unwrittenBy03 : Bst (List Key) :=
 (.node (.node (.node (.node (.node .nil
     k!"contextRefs" [k!"InnerPortGroupInCompositionInstanceRef"]
     .nil)
    k!"ipSecConfig" [k!"NetworkEndpoint"]
    .nil)
   k!"isAutoValue" [k!"EcucReferenceValue", k!"EcucTextualParamValue", k!"EcucNumericalParamValue", k!"EcucInstanceReferenceValue"]
   (.node .nil
    k!"macSecProps" [k!"CouplingPort"]
    .nil))
  k!"pncMappings" [k!"SystemMapping"]
  (.node (.node (.node .nil
     k!"responseRef" [k!"DiagnosticConnection"]
     .nil)
    k!"serviceKind" [k!"TriggerInterface", k!"SenderReceiverInterface"]
    .nil)
   k!"atpTargetRef" [k!"AnyInstanceRef", k!"RteEventInEcuInstanceRef", k!"PModeGroupInAtomicSwcInstanceRef", k!"RModeGroupInAtomicSWCInstanceRef", k!"POperationInAtomicSwcInstanceRef", k!"ROperationInAtomicSwcInstanceRef", k!"VariableAccessInEcuInstanceRef", k!"RModeInAtomicSwcInstanceRef", k!"ComponentInSystemInstanceRef", k!"PTriggerInAtomicSwcTypeInstanceRef", k!"PPortInCompositionInstanceRef", k!"RPortInCompositionInstanceRef", k!"InnerPortGroupInCompositionInstanceRef", k!"RVariableInAtomicSwcInstanceRef", k!"InstanceEventInCompositionInstanceRef", k!"VariableInAtomicSWCTypeInstanceRef", k!"ParameterInAtomicSWCTypeInstanceRef", k!"ModeInBswModuleDescriptionInstanceRef", k!"RunnableEntityInCompositionInstanceRef", k!"DataPrototypeInClientServerInterfaceInstanceRef", k!"VariableDataPrototypeInSystemInstanceRef", k!"VariableDataPrototypeInCompositionInstanceRef", k!"InnerDataPrototypeGroupInCompositionInstanceRef", k!"InnerRunnableEntityGroupInCompositionInstanceRef", k!"ApplicationCompositeElementInPortInterfaceInstanceRef"]
   (.node .nil
    k!"chapterBreak" [k!"MlFigure", k!"ARList", k!"MlFormula", k!"MultiLanguageVerbatim", k!"MultiLanguageParagraph"]
    .nil)))
 k!"defaultValue" [k!"TargetIPduRef"]
 (.node (.node (.node (.node .nil
     k!"firstTimeout" [k!"ISignalPort"]
     .nil)
    k!"macLayerType" [k!"EthernetCommunicationController"]
    .nil)
   k!"majorVersion" [k!"ProvidedServiceInstance", k!"ConsumedServiceInstance"]
   (.node .nil
    k!"minorVersion" [k!"ConsumedServiceInstance"]
    .nil))
  k!"multicastRef" [k!"LinTpConnection"]
  (.node (.node .nil
    k!"obdDtcNumber" [k!"DiagnosticEventInfoNeeds"]
    .nil)
   k!"pncWakeupDlc" [k!"CanCommunicationConnector"]
   (.node .nil
    k!"protocolKind" [k!"DiagnosticServiceTable"]
    .nil))))

def unwrittenBy04 : Bst (List Key) :=
 (.node (.node (.node (.node (.node .nil
     k!"sendPolicies" [k!"BswInternalBehavior"]
     .nil)
    k!"algorithmMode" [k!"CryptoServiceNeeds"]
    .nil)
   k!"clientIdRange" [k!"EcuInstance"]
   (.node .nil
    k!"counterJumpUp" [k!"DiagEventDebounceCounterBased"]
    .nil))
  k!"couplingPorts" [k!"EthernetCluster"]
  (.node (.node .nil
    k!"errorMappings" [k!"ClientServerInterfaceMapping"]
    .nil)
   k!"ethIpPropsRef" [k!"EthernetCommunicationConnector"]
   (.node .nil
    k!"figureCaption" [k!"MlFigure"]
    .nil)))
 k!"frameMappings" [k!"Gateway"]
 (.node (.node (.node (.node .nil
     k!"maxDataLength" [k!"EndToEndTransformationISignalProps"]
     .nil)
    k!"minDataLength" [k!"EndToEndTransformationISignalProps"]
    .nil)
   k!"nmCoordinator" [k!"NmEcu"]
   (.node .nil
    k!"storeOnChange" [k!"NvBlockNeeds"]
    .nil))
  k!"swClusterRefs" [k!"System"]
  (.node (.node .nil
    k!"targetPortRef" [k!"PPortInCompositionInstanceRef", k!"RPortInCompositionInstanceRef"]
    .nil)
   k!"triggerPeriod" [k!"Trigger"]
   (.node .nil
    k!"wakeUpChannel" [k!"FlexrayCommunicationConnector"]
    .nil))))

def unwrittenBy05 : Bst (List Key) :=
 .node unwrittenBy03 k!"ratePolicies" [k!"CouplingPortDetails"] unwrittenBy04

def unwrittenBy06 : Bst (List Key) :=
 .node unwrittenBy02 k!"connections" [k!"SoAdConfig"] unwrittenBy05

def unwrittenBy07 : Bst (List Key) :=
 (.node (.node (.node (.node (.node .nil
     k!"blueprintValue" [k!"LLongName"]
     .nil)
    k!"canXlConfigRef" [k!"EthernetCommunicationController"]
    .nil)
   k!"clientPolicies" [k!"BswInternalBehavior"]
   (.node .nil
    k!"defaultVlanRef" [k!"CouplingPort"]
    .nil))
  k!"globalElements" [k!"ReferenceBase"]
  (.node (.node (.node .nil
     k!"hwCategoryRefs" [k!"HwType"]
     .nil)
    k!"hwPortMappings" [k!"ECUMapping"]
    .nil)
   k!"pathMtuEnabled" [k!"EthernetCommunicationConnector"]
   (.node .nil
    k!"pathMtuTimeout" [k!"EthernetCommunicationConnector"]
    .nil)))
 k!"pncMappingRefs" [k!"CouplingPort"]
 (.node (.node (.node (.node .nil
     k!"pncWakeupCanId" [k!"CanCommunicationConnector"]
     .nil)
    k!"productRelease" [k!"LifeCyclePeriod"]
    .nil)
   k!"rtePluginProps" [k!"FlatInstanceDescriptor"]
   (.node .nil
    k!"swVariableRefs" [k!"SwAxisIndividual"]
    .nil))
  k!"algorithmFamily" [k!"CryptoServiceNeeds"]
  (.node (.node .nil
    k!"arrayImplPolicy" [k!"ImplementationDataTypeElement"]
    .nil)
   k!"counterJumpDown" [k!"DiagEventDebounceCounterBased"]
   (.node .nil
    k!"defaultPriority" [k!"VlanMembership"]
    .nil))))

def unwrittenBy08 : Bst (List Key) :=
 (.node (.node (.node (.node (.node .nil
     k!"enhancedModeApi" [k!"ModeSwitchSenderComSpec"]
     .nil)
    k!"fileInfoComment" [k!"AUTOSAR"]
    .nil)
   k!"globalTimeProps" [k!"CouplingPortDetails"]
   (.node .nil
    k!"nmNodeIdEnabled" [k!"CanNmCluster", k!"UdpNmCluster"]
    .nil))
  k!"pdurTpChunkSize" [k!"IPduMapping"]
  (.node (.node .nil
    k!"pncVectorLength" [k!"System"]
    .nil)
   k!"pncVectorOffset" [k!"System"]
   (.node .nil
    k!"predecessorRefs" [k!"CouplingPortScheduler"]
    .nil)))
 k!"receiveActivity" [k!"CouplingPort"]
 (.node (.node (.node (.node .nil
     k!"revisionLabelP1" [k!"DocRevision"]
     .nil)
    k!"revisionLabelP2" [k!"DocRevision"]
    .nil)
   k!"sourceInstances" [k!"Collection"]
   (.node .nil
    k!"syncCounterInit" [k!"EndToEndDescription"]
    .nil))
  k!"unitDisplayName" [k!"SwValueCont"]
  (.node (.node .nil
    k!"argumentMappings" [k!"ClientServerOperationMapping"]
    .nil)
   k!"borTimeTxEnsured" [k!"CanClusterBusOffRecovery"]
   (.node .nil
    k!"couplingPortRole" [k!"CouplingPort"]
    .nil))))

def unwrittenBy09 : Bst (List Key) :=
 .node unwrittenBy07 k!"diagRequirement" [k!"ObdPidServiceNeeds", k!"ObdInfoServiceNeeds", k!"DiagnosticEventNeeds", k!"DiagnosticValueNeeds", k!"ObdRatioServiceNeeds", k!"DiagnosticRoutineNeeds", k!"ObdControlServiceNeeds", k!"ObdMonitorServiceNeeds", k!"DiagnosticEventInfoNeeds", k!"DiagnosticIoControlNeeds", k!"DiagnosticOperationCycleNeeds", k!"DiagnosticEnableConditionNeeds", k!"DiagnosticStorageConditionNeeds", k!"DtcStatusChangeNotificationNeeds", k!"DiagnosticCommunicationManagerNeeds"] unwrittenBy08

def unwrittenBy10 : Bst (List Key) :=
 (.node (.node (.node (.node (.node .nil
     k!"defaultPeriodEnd" [k!"LifeCycleInfoSet"]
     .nil)
    k!"hasDynamicLength" [k!"ISignalIPdu"]
    .nil)
   k!"j1939requestable" [k!"CanFrameTriggering"]
   (.node .nil
    k!"keepWithPrevious" [k!"MlFigure", k!"ARList", k!"MlFormula", k!"MultiLanguageVerbatim", k!"MultiLanguageParagraph"]
    .nil))
  k!"mayBeUnconnected" [k!"RPortPrototype"]
  (.node (.node (.node .nil
     k!"metaDataItemSets" [k!"SenderReceiverInterface"]
     .nil)
    k!"nmReadySleepTime" [k!"FlexrayCommunicationConnector"]
    .nil)
   k!"notificationTime" [k!"DtcStatusChangeNotificationNeeds"]
   (.node .nil
    k!"providedComSpecs" [k!"PortPrototypeBlueprint"]
    .nil)))
 k!"receiveWindowMin" [k!"TcpTp"]
 (.node (.node (.node (.node .nil
     k!"requiredComSpecs" [k!"PortPrototypeBlueprint"]
     .nil)
    k!"routingGroupRefs" [k!"SocketConnectionIpduIdentifier", k!"ProvidedServiceInstance", k!"ConsumedServiceInstance"]
    .nil)
   k!"capabilityRecords" [k!"SdServerConfig", k!"ProvidedServiceInstance", k!"ConsumedServiceInstance"]
   (.node .nil
    k!"compuInverseValue" [k!"CompuScale"]
    .nil))
  k!"hwAttributeValues" [k!"HwType"]
  (.node (.node .nil
    k!"hwPinGroupContent" [k!"HwPinGroup"]
    .nil)
   k!"macUnicastAddress" [k!"EthernetCommunicationController"]
   (.node .nil
    k!"minimumFifoLength" [k!"CouplingPortFifo"]
    .nil))))

def unwrittenBy11 : Bst (List Key) :=
 (.node (.node (.node (.node (.node .nil
     k!"nmDataInformation" [k!"NmPdu"]
     .nil)
    k!"nmVoteInformation" [k!"NmPdu"]
    .nil)
   k!"parameterPolicies" [k!"BswInternalBehavior"]
   (.node .nil
    k!"physicalLayerType" [k!"CouplingPort"]
    .nil))
  k!"pncFilterDataMask" [k!"FlexrayCommunicationConnector"]
  (.node (.node .nil
    k!"pncWakeupDataMask" [k!"CanCommunicationConnector"]
    .nil)
   k!"processingUnitRef" [k!"SwcToEcuMapping"]
   (.node .nil
    k!"requiredRTEVendor" [k!"SwcImplementation"]
    .nil)))
 k!"serviceIdentifier" [k!"ConsumedServiceInstance"]
 (.node (.node (.node (.node .nil
     k!"supportedFeatures" [k!"PortAPIOption"]
     .nil)
    k!"swClusterMappings" [k!"SystemMapping"]
    .nil)
   k!"collectedInstances" [k!"Collection"]
   (.node .nil
    k!"complexTypeMapping" [k!"SenderRecRecordElementMapping"]
    .nil))
  k!"containedIPduProps" [k!"ISignalIPdu"]
  (.node (.node .nil
    k!"counterJumpUpValue" [k!"DiagEventDebounceCounterBased"]
    .nil)
   k!"dataIdNibbleOffset" [k!"EndToEndDescription"]
   (.node .nil
    k!"defaultPeriodBegin" [k!"LifeCycleInfoSet"]
    .nil))))

def unwrittenBy12 : Bst (List Key) :=
 .node unwrittenBy10 k!"neighborCacheSize" [k!"EthernetCommunicationConnector"] unwrittenBy11

def unwrittenBy13 : Bst (List Key) :=
 .node unwrittenBy09 k!"ddsQosProfileRef" [k!"ISignalPort"] unwrittenBy12

def unwrittenBy14 : Bst (List Key) :=
 .node unwrittenBy06 k!"a2lDisplayText" [k!"CompuScale"] unwrittenBy13

def unwrittenBy15 : Bst (List Key) :=
 (.node (.node (.node (.node (.node .nil
     k!"instanceIdentifier" [k!"ConsumedServiceInstance"]
     .nil)
    k!"mainFunctionPeriod" [k!"CanClusterBusOffRecovery"]
    .nil)
   k!"mappingConstraints" [k!"SystemMapping"]
   (.node .nil
    k!"nmPncParticipation" [k!"CanNmCluster", k!"UdpNmCluster"]
    .nil))
  k!"pncWakeupCanIdMask" [k!"CanCommunicationConnector"]
  (.node (.node (.node .nil
     k!"targetOperationRef" [k!"POperationInAtomicSwcInstanceRef", k!"ROperationInAtomicSwcInstanceRef"]
     .nil)
    k!"blocklistedVersions" [k!"ConsumedServiceInstance"]
    .nil)
   k!"cyclicWritingPeriod" [k!"NvBlockNeeds"]
   (.node .nil
    k!"defaultTrafficClass" [k!"CouplingPortDetails"]
    .nil)))
 k!"diagnosticRelevance" [k!"SwcServiceDependency", k!"BswServiceDependency"]
 (.node (.node (.node (.node .nil
     k!"globalInPackageRefs" [k!"ReferenceBase"]
     .nil)
    k!"pncFilterArrayMasks" [k!"CanCommunicationConnector", k!"LinCommunicationConnector", k!"FlexrayCommunicationConnector", k!"EthernetCommunicationConnector"]
    .nil)
   k!"relatedTraceItemRef" [k!"EcucModuleDef", k!"EcucReferenceDef", k!"EcucFloatParamDef", k!"EcucStringParamDef", k!"EcucBooleanParamDef", k!"EcucFunctionNameDef", k!"EcucIntegerParamDef", k!"EcucChoiceContainerDef", k!"EcucChoiceReferenceDef", k!"EcucParamConfContainerDef", k!"EcucEnumerationParamDef", k!"EcucInstanceReferenceDef", k!"EcucMultilineStringParamDef", k!"EcucSymbolicNameReferenceDef"]
   (.node .nil
    k!"resourceEstimations" [k!"SystemMapping"]
    .nil))
  k!"rteEventSeparations" [k!"SystemMapping"]
  (.node (.node .nil
    k!"securityAccessLevel" [k!"ObdPidServiceNeeds", k!"ObdInfoServiceNeeds", k!"DiagnosticEventNeeds", k!"DiagnosticValueNeeds", k!"ObdRatioServiceNeeds", k!"DiagnosticRoutineNeeds", k!"ObdControlServiceNeeds", k!"ObdMonitorServiceNeeds", k!"DiagnosticEventInfoNeeds", k!"DiagnosticIoControlNeeds", k!"DiagnosticOperationCycleNeeds", k!"DiagnosticEnableConditionNeeds", k!"DiagnosticStorageConditionNeeds", k!"DtcStatusChangeNotificationNeeds", k!"DiagnosticCommunicationManagerNeeds"]
    .nil)
   k!"systemDocumentation" [k!"System"]
   (.node .nil
    k!"timeFailedThreshold" [k!"DiagEventDebounceTimeBased"]
    .nil))))

def unwrittenBy16 : Bst (List Key) :=
 (.node (.node (.node (.node (.node .nil
     k!"timeSynchronization" [k!"InfrastructureServices"]
     .nil)
    k!"tlsCryptoMappingRef" [k!"ApplicationEndpoint"]
    .nil)
   k!"udpChecksumHandling" [k!"SocketAddress", k!"SocketConnectionBundle"]
   (.node .nil
    k!"useSecuredPduHeader" [k!"SecuredIPdu"]
    .nil))
  k!"allowedTcpOptionsRef" [k!"SocketConnection", k!"SocketAddress"]
  (.node (.node (.node .nil
     k!"busIdleTimeoutPeriod" [k!"LinPhysicalChannel"]
     .nil)
    k!"counterJumpDownValue" [k!"DiagEventDebounceCounterBased"]
    .nil)
   k!"cryptoKeyDescription" [k!"CryptoServiceNeeds"]
   (.node .nil
    k!"iPduSignalProcessing" [k!"IPduPort"]
    .nil)))
 k!"includedDataTypeSets" [k!"BswInternalBehavior"]
 (.node (.node (.node (.node .nil
     k!"pduCollectionTimeout" [k!"SocketAddress"]
     .nil)
    k!"returnValueProvision" [k!"VariableAccess", k!"ModeSwitchPoint", k!"ParameterAccess", k!"SynchronousServerCallPoint", k!"AsynchronousServerCallPoint", k!"InternalTriggeringPoint", k!"AsynchronousServerCallResultPoint"]
    .nil)
   k!"atpContextElementRefs" [k!"AnyInstanceRef", k!"RteEventInEcuInstanceRef", k!"PModeGroupInAtomicSwcInstanceRef", k!"RModeGroupInAtomicSWCInstanceRef", k!"POperationInAtomicSwcInstanceRef", k!"ROperationInAtomicSwcInstanceRef", k!"VariableAccessInEcuInstanceRef", k!"RModeInAtomicSwcInstanceRef", k!"ComponentInSystemInstanceRef", k!"PTriggerInAtomicSwcTypeInstanceRef", k!"PPortInCompositionInstanceRef", k!"RPortInCompositionInstanceRef", k!"InnerPortGroupInCompositionInstanceRef", k!"RVariableInAtomicSwcInstanceRef", k!"InstanceEventInCompositionInstanceRef", k!"VariableInAtomicSWCTypeInstanceRef", k!"ParameterInAtomicSWCTypeInstanceRef", k!"ModeInBswModuleDescriptionInstanceRef", k!"RunnableEntityInCompositionInstanceRef", k!"DataPrototypeInClientServerInterfaceInstanceRef", k!"VariableDataPrototypeInSystemInstanceRef", k!"VariableDataPrototypeInCompositionInstanceRef", k!"InnerDataPrototypeGroupInCompositionInstanceRef", k!"InnerRunnableEntityGroupInCompositionInstanceRef", k!"ApplicationCompositeElementInPortInterfaceInstanceRef"]
   (.node .nil
    k!"comManagementMappings" [k!"SystemMapping"]
    .nil))
  k!"contextLimitationRefs" [k!"BswVariableAccess", k!"BswSynchronousServerCallPoint", k!"BswAsynchronousServerCallPoint"]
  (.node (.node .nil
    k!"createEcuWakeupSource" [k!"CanCommunicationConnector", k!"LinCommunicationConnector", k!"FlexrayCommunicationConnector", k!"EthernetCommunicationConnector"]
    .nil)
   k!"cryptoServiceMappings" [k!"SystemMapping"]
   (.node .nil
    k!"dhcpAddressAssignment" [k!"VlanMembership"]
    .nil))))

def unwrittenBy17 : Bst (List Key) :=
 .node unwrittenBy15 k!"timePassedThreshold" [k!"DiagEventDebounceTimeBased"] unwrittenBy16

def unwrittenBy18 : Bst (List Key) :=
 (.node (.node (.node (.node (.node .nil
     k!"exclusiveAreaPolicies" [k!"BswInternalBehavior"]
     .nil)
    k!"ipAddressKeepBehavior" [k!"Ipv6Configuration"]
    .nil)
   k!"linConfigurableFrames" [k!"LinCommunicationConnector"]
   (.node .nil
    k!"nmRepeatMsgIndEnabled" [k!"CanNmCluster", k!"UdpNmCluster"]
    .nil))
  k!"perInstanceParameters" [k!"BswInternalBehavior"]
  (.node (.node (.node .nil
     k!"schedulerNamePrefixes" [k!"BswInternalBehavior"]
     .nil)
    k!"secOcCryptoMappingRef" [k!"PduTriggering"]
    .nil)
   k!"signalPathConstraints" [k!"SystemMapping"]
   (.node .nil
    k!"variationPointProxies" [k!"BswInternalBehavior"]
    .nil)))
 k!"vlanTranslationTables" [k!"CouplingPortDetails"]
 (.node (.node (.node (.node .nil
     k!"allNmMessagesKeepAwake" [k!"CanNmNode", k!"UdpNmNode"]
     .nil)
    k!"assignedTrafficClasses" [k!"CouplingPortFifo"]
    .nil)
   k!"commControllerMappings" [k!"ECUMapping"]
   (.node .nil
    k!"controlledHwElementRef" [k!"SwcToEcuMapping"]
    .nil))
  k!"counterFailedThreshold" [k!"DiagEventDebounceCounterBased"]
  (.node (.node .nil
    k!"counterPassedThreshold" [k!"DiagEventDebounceCounterBased"]
    .nil)
   k!"framePreemptionSupport" [k!"CouplingPortDetails"]
   (.node .nil
    k!"maxNoNewOrRepeatedData" [k!"EndToEndDescription"]
    .nil))))

def unwrittenBy19 : Bst (List Key) :=
 (.node (.node (.node (.node (.node .nil
     k!"nmCarWakeUpBitPosition" [k!"CanNmCluster"]
     .nil)
    k!"nmNodeDetectionEnabled" [k!"CanNmCluster", k!"UdpNmCluster"]
    .nil)
   k!"perInstanceMemorySizes" [k!"SwcImplementation"]
   (.node .nil
    k!"pncWakeupCanIdExtended" [k!"CanCommunicationConnector"]
    .nil))
  k!"sdClientTimerConfigRef" [k!"ConsumedEventGroup", k!"ConsumedServiceInstance"]
  (.node (.node .nil
    k!"contextDataPrototypeRef" [k!"ApplicationCompositeElementInPortInterfaceInstanceRef"]
    .nil)
   k!"distinguishedPartitions" [k!"BswInternalBehavior"]
   (.node .nil
    k!"localUnicastAddressRefs" [k!"ConsumedServiceInstance"]
    .nil)))
 k!"macMulticastAddressRefs" [k!"CouplingPort"]
 (.node (.node (.node (.node .nil
     k!"nmCarWakeUpFilterNodeId" [k!"CanNmCluster"]
     .nil)
    k!"nmCycletimeMainFunction" [k!"NmEcu"]
    .nil)
   k!"pathMtuDiscoveryEnabled" [k!"SocketAddress", k!"SocketConnectionBundle"]
   (.node .nil
    k!"pduCollectionPduTimeout" [k!"SocketConnectionIpduIdentifier"]
    .nil))
  k!"releasedTriggerPolicies" [k!"BswInternalBehavior"]
  (.node (.node .nil
    k!"staticSocketConnections" [k!"SocketAddress"]
    .nil)
   k!"swRecordLayoutComponent" [k!"SwRecordLayoutGroup"]
   (.node .nil
    k!"swRecordLayoutVFixValue" [k!"SwRecordLayoutV"]
    .nil))))

def unwrittenBy20 : Bst (List Key) :=
 .node unwrittenBy18 k!"maxNumberOfConnections" [k!"ApplicationEndpoint"] unwrittenBy19

def unwrittenBy21 : Bst (List Key) :=
 .node unwrittenBy17 k!"doIpLogicAddressProps" [k!"DoIpLogicAddress"] unwrittenBy20

def unwrittenBy22 : Bst (List Key) :=
 (.node (.node (.node (.node (.node .nil
     k!"counterDecrementStepSize" [k!"DiagEventDebounceCounterBased"]
     .nil)
    k!"counterIncrementStepSize" [k!"DiagEventDebounceCounterBased"]
    .nil)
   k!"fullyQualifiedDomainName" [k!"NetworkEndpoint"]
   (.node .nil
    k!"modeDrivenTrueConditions" [k!"TransmissionModeDeclaration"]
    .nil))
  k!"nmCarWakeUpFilterEnabled" [k!"CanNmNode"]
  (.node (.node (.node .nil
     k!"pduSocketConnectionIpdus" [k!"SocketConnection"]
     .nil)
    k!"periodicResponseUudtRefs" [k!"DiagnosticConnection"]
    .nil)
   k!"remoteUnicastAddressRefs" [k!"ConsumedServiceInstance"]
   (.node .nil
    k!"tcpRetransmissionTimeout" [k!"TcpTp"]
    .nil)))
 k!"canXlFrameTriggeringProps" [k!"CanFrameTriggering"]
 (.node (.node (.node (.node .nil
     k!"clientIdDefinitionSetRefs" [k!"System"]
     .nil)
    k!"ddsISignalToTopicMappings" [k!"SystemMapping"]
    .nil)
   k!"eventMulticastAddressRefs" [k!"ConsumedEventGroup"]
   (.node .nil
    k!"macAddressVlanAssignments" [k!"CouplingPort"]
    .nil))
  k!"modeDrivenFalseConditions" [k!"TransmissionModeDeclaration"]
  (.node (.node .nil
    k!"triggerIPduSendConditions" [k!"PduTriggering"]
    .nil)
   k!"upperMultiplicityInfinite" [k!"EcucModuleDef", k!"EcucReferenceDef", k!"EcucFloatParamDef", k!"EcucStringParamDef", k!"EcucBooleanParamDef", k!"EcucFunctionNameDef", k!"EcucIntegerParamDef", k!"EcucChoiceContainerDef", k!"EcucChoiceReferenceDef", k!"EcucParamConfContainerDef", k!"EcucEnumerationParamDef", k!"EcucInstanceReferenceDef", k!"EcucMultilineStringParamDef", k!"EcucSymbolicNameReferenceDef"]
   (.node .nil
    k!"versionDrivenFindBehavior" [k!"ConsumedServiceInstance"]
    .nil))))

def unwrittenBy23 : Bst (List Key) :=
 (.node (.node (.node (.node (.node .nil
     k!"allowedServiceProviderRefs" [k!"ConsumedServiceInstance"]
     .nil)
    k!"arTypedPerInstanceMemories" [k!"BswInternalBehavior"]
    .nil)
   k!"couplingPortSwitchoffDelay" [k!"EthernetCluster"]
   (.node .nil
    k!"differentiatedServiceField" [k!"SocketAddress", k!"SocketConnectionBundle"]
    .nil))
  k!"j1939SharedAddressClusters" [k!"System"]
  (.node (.node .nil
    k!"managedPhysicalChannelRefs" [k!"CanPhysicalChannel", k!"LinPhysicalChannel", k!"FlexrayPhysicalChannel", k!"EthernetPhysicalChannel"]
    .nil)
   k!"maximumReceiveBufferLength" [k!"EthernetCommunicationController"]
   (.node .nil
    k!"pduActivationRoutingGroups" [k!"ConsumedEventGroup"]
    .nil)))
 k!"pduCollectionMaxBufferSize" [k!"SocketAddress"]
 (.node (.node (.node (.node .nil
     k!"scheduleChangeNextTimeBase" [k!"LinCommunicationConnector"]
     .nil)
    k!"selectBlockForFirstInitAll" [k!"NvBlockNeeds"]
    .nil)
   k!"abstractContextComponentRef" [k!"PPortInCompositionInstanceRef", k!"RPortInCompositionInstanceRef"]
   (.node .nil
    k!"maximumTransmitBufferLength" [k!"EthernetCommunicationController"]
    .nil))
  k!"physicalDimensionMappingRef" [k!"CompositionSwComponentType"]
  (.node (.node .nil
    k!"timestampRxAcceptanceWindow" [k!"IPduPort"]
    .nil)
   k!"transformerStatusForwarding" [k!"PortAPIOption"]
   (.node .nil
    k!"bswPerInstanceMemoryPolicies" [k!"BswInternalBehavior"]
    .nil))))

def unwrittenBy24 : Bst (List Key) :=
 .node unwrittenBy22 k!"absolutelyScheduledTimings" [k!"CanFrameTriggering"] unwrittenBy23

def unwrittenBy25 : Bst (List Key) :=
 (.node (.node (.node (.node (.node .nil
     k!"dynamicRuntimeLengthHandling" [k!"SecuredIPdu"]
     .nil)
    k!"linOrderedConfigurableFrames" [k!"LinCommunicationConnector"]
    .nil)
   k!"maxNumberOfRespPendingFrames" [k!"LinTpNode"]
   (.node .nil
    k!"methodActivationRoutingGroup" [k!"ProvidedServiceInstance", k!"ConsumedServiceInstance"]
    .nil))
  k!"rootVariableDataPrototypeRef" [k!"VariableInAtomicSWCTypeInstanceRef"]
  (.node (.node (.node .nil
     k!"triggerDirectImplementations" [k!"BswInternalBehavior"]
     .nil)
    k!"autosarVariableInImplDatatype" [k!"AutosarVariableRef"]
    .nil)
   k!"connectionNegotiationBehavior" [k!"CouplingPort"]
   (.node .nil
    k!"couplingPortStartupActiveTime" [k!"EthernetCluster"]
    .nil)))
 k!"diagnosticServiceInstanceRefs" [k!"DiagnosticServiceTable"]
 (.node (.node (.node (.node .nil
     k!"rteEventToOsTaskProxyMappings" [k!"SystemMapping"]
     .nil)
    k!"trafficClassPreemptionSupport" [k!"CouplingPortFifo"]
    .nil)
   k!"senderToSignalTextTableMapping" [k!"SenderReceiverToSignalMapping", k!"SenderRecRecordElementMapping"]
   (.node .nil
    k!"wakeupSleepOnDatalineConfigRef" [k!"CouplingPort"]
    .nil))
  k!"ethernetTrafficClassAssignments" [k!"CouplingPortDetails"]
  (.node (.node .nil
    k!"internalTriggeringPointPolicies" [k!"BswInternalBehavior"]
    .nil)
   k!"calledFromWithinExclusiveAreaRef" [k!"SynchronousServerCallPoint", k!"BswSynchronousServerCallPoint"]
   (.node .nil
    k!"portElementToComResourceMappings" [k!"SystemMapping"]
    .nil))))

def unwrittenBy26 : Bst (List Key) :=
 (.node (.node (.node (.node (.node .nil
     k!"dynamicPncToChannelMappingEnabled" [k!"CanCommunicationConnector", k!"LinCommunicationConnector", k!"FlexrayCommunicationConnector", k!"EthernetCommunicationConnector"]
     .nil)
    k!"softwareClusterToResourceMappings" [k!"SystemMapping"]
    .nil)
   k!"swcToApplicationPartitionMappings" [k!"SystemMapping"]
   (.node .nil
    k!"systemSignalToComResourceMappings" [k!"SystemMapping"]
    .nil))
  k!"timeBasedFdcThresholdStorageValue" [k!"DiagEventDebounceTimeBased"]
  (.node (.node .nil
    k!"intendedPartialInitializationCount" [k!"ArrayValueSpecification"]
    .nil)
   k!"interpolationRoutineMappingSetRefs" [k!"System"]
   (.node .nil
    k!"slaveActAsPassiveCommunicationSlave" [k!"EthernetCommunicationController"]
    .nil)))
 k!"appOsTaskProxyToEcuTaskProxyMappings" [k!"SystemMapping"]
 (.node (.node (.node (.node .nil
     k!"counterBasedFdcThresholdStorageValue" [k!"DiagEventDebounceCounterBased"]
     .nil)
    k!"eventMulticastSubscriptionAddressRef" [k!"ConsumedServiceInstance"]
    .nil)
   k!"slaveQualifiedUnexpectedLinkDownTime" [k!"EthernetCommunicationController"]
   (.node .nil
    k!"resourceToApplicationPartitionMappings" [k!"SystemMapping"]
    .nil))
  k!"systemSignalGroupToComResourceMappings" [k!"SystemMapping"]
  (.node (.node .nil
    k!"applicationPartitionToEcuPartitionMappings" [k!"SystemMapping"]
    .nil)
   k!"softwareClusterToApplicationPartitionMappings" [k!"SystemMapping"]
   (.node .nil
    k!"j1939ControllerApplicationToJ1939NmNodeMappings" [k!"SystemMapping"]
    .nil))))

def unwrittenBy27 : Bst (List Key) :=
 .node unwrittenBy25 k!"signalToReceiverTextTableMapping" [k!"SenderReceiverToSignalMapping", k!"SenderRecRecordElementMapping"] unwrittenBy26

def unwrittenBy28 : Bst (List Key) :=
 .node unwrittenBy24 k!"containerIPduHeaderByteOrder" [k!"System"] unwrittenBy27

def unwrittenBy29 : Bst (List Key) :=
 .node unwrittenBy21 k!"allowedIPv6ExtHeadersRef" [k!"SocketConnection", k!"SocketAddress"] unwrittenBy28

def unwrittenBy30 : Bst (List Key) :=
 .node unwrittenBy14 k!"dnsServerAddresses" [k!"Ipv6Configuration"] unwrittenBy29

/-- for such attributes: the classes whose objects are written without looking at them -/
def unwrittenBy : Bst (List Key) := unwrittenBy30

def writtenOnly00 : Bst (List Key) :=
 (.node (.node (.node (.node .nil
    k!"Sd" [k!"xmlSpace"]
    .nil)
   k!"AUTOSAR" [k!"introduction"]
   (.node .nil
    k!"Graphic" [k!"category", k!"domain", k!"revisionLabels", k!"shortLabel"]
    .nil))
  k!"Trigger" [k!"swImplPolicy"]
  (.node (.node .nil
    k!"LGraphic" [k!"value"]
    .nil)
   k!"MlFigure" [k!"helpEntry", k!"pgwide", k!"verbatim"]
   .nil))
 k!"Collection" [k!"collectionSemantics"]
 (.node (.node (.node .nil
    k!"DataFilter" [k!"offset"]
    .nil)
   k!"IPduTiming" [k!"adminData", k!"category", k!"desc", k!"introduction"]
   (.node .nil
    k!"SdgCaption" [k!"desc", k!"longName", k!"shortNameFragments"]
    .nil))
  k!"VlanConfig" [k!"adminData", k!"desc", k!"variationPoint", k!"introduction", k!"annotations", k!"longName", k!"shortNameFragments"]
  (.node (.node .nil
    k!"CompuMethod" [k!"displayFormat"]
    .nil)
   k!"IPduMapping" [k!"introduction"]
   .nil)))

def writtenOnly01 : Bst (List Key) :=
 (.node (.node (.node (.node .nil
    k!"CyclicTiming" [k!"adminData", k!"category", k!"desc", k!"introduction"]
    .nil)
   k!"EmphasisText" [k!"type"]
   (.node .nil
    k!"RptComponent" [k!"adminData", k!"desc", k!"variationPoint", k!"introduction", k!"annotations", k!"longName", k!"shortNameFragments"]
    .nil))
  k!"ExclusiveArea" [k!"adminData", k!"desc", k!"variationPoint", k!"introduction", k!"annotations", k!"longName", k!"shortNameFragments"]
  (.node (.node .nil
    k!"SwAxisGrouped" [k!"swAxisIndex", k!"swCalprmRef"]
    .nil)
   k!"BswTimingEvent" [k!"adminData", k!"desc", k!"variationPoint", k!"introduction", k!"annotations", k!"longName", k!"shortNameFragments"]
   .nil))
 k!"ISignalMapping" [k!"introduction"]
 (.node (.node (.node .nil
    k!"McDataInstance" [k!"adminData", k!"desc", k!"variationPoint", k!"introduction", k!"annotations", k!"longName", k!"shortNameFragments"]
    .nil)
   k!"ModeTransition" [k!"adminData", k!"desc", k!"variationPoint", k!"introduction", k!"annotations", k!"longName", k!"shortNameFragments"]
   .nil)
  k!"SwDataDefProps" [k!"displayPresentation", k!"stepSize", k!"swValueBlockSizeMults", k!"annotations", k!"swAddrMethodRef", k!"swAlignment", k!"baseTypeRef", k!"swBitRepresentation", k!"swCalibrationAccess", k!"swValueBlockSize", k!"swCalprmAxisSet", k!"swTextProps", k!"swComparisonVariables", k!"compuMethodRef", k!"dataConstrRef", k!"swDataDependency", k!"displayFormat", k!"implementationDataTypeRef", k!"swHostVariable", k!"swImplPolicy", k!"additionalNativeTypeQualifier", k!"swIntendedResolution", k!"swInterpolationMethod", k!"invalidValue", k!"swIsVirtual", k!"swPointerTargetProps", k!"swRecordLayoutRef", k!"swRefreshTiming", k!"unitRef", k!"valueAxisDataTypeRef"]
  (.node (.node .nil
    k!"VariableAccess" [k!"scope"]
    .nil)
   k!"LifeCyclePeriod" [k!"date"]
   .nil)))

def writtenOnly02 : Bst (List Key) :=
 .node writtenOnly00 k!"ISignalPort" [k!"dataFilter", k!"handleInvalid"] writtenOnly01

def writtenOnly03 : Bst (List Key) :=
 (.node (.node (.node (.node .nil
    k!"ModeDeclaration" [k!"adminData", k!"desc", k!"variationPoint", k!"introduction", k!"annotations", k!"longName", k!"shortNameFragments"]
    .nil)
   k!"ModeSwitchPoint" [k!"adminData", k!"desc", k!"variationPoint", k!"introduction", k!"annotations", k!"longName", k!"shortNameFragments"]
   (.node .nil
    k!"ParameterAccess" [k!"swDataDefProps"]
    .nil))
  k!"RptServicePoint" [k!"adminData", k!"desc", k!"variationPoint", k!"introduction", k!"annotations", k!"longName", k!"shortNameFragments"]
  (.node (.node .nil
    k!"SwRecordLayoutV" [k!"desc", k!"swGenericAxisParamTypeRef"]
    .nil)
   k!"ApplicationEntry" [k!"introduction"]
   .nil))
 k!"HwAttributeValue" [k!"value"]
 (.node (.node (.node .nil
    k!"SocketConnection" [k!"adminData", k!"category", k!"desc", k!"introduction"]
    .nil)
   k!"SwAxisIndividual" [k!"unitRef"]
   .nil)
  k!"PduToFrameMapping" [k!"updateIndicationBitPosition"]
  (.node (.node .nil
    k!"SectionNamePrefix" [k!"symbol"]
    .nil)
   k!"BswBackgroundEvent" [k!"adminData", k!"desc", k!"variationPoint", k!"introduction", k!"annotations", k!"longName", k!"shortNameFragments"]
   .nil)))

def writtenOnly04 : Bst (List Key) :=
 (.node (.node (.node (.node .nil
    k!"ConsumedEventGroup" [k!"priority"]
    .nil)
   k!"ModePortAnnotation" [k!"annotationOrigin", k!"annotationText", k!"label"]
   (.node .nil
    k!"ApplicationEndpoint" [k!"adminData", k!"desc", k!"variationPoint", k!"introduction", k!"annotations", k!"longName", k!"shortNameFragments"]
    .nil))
  k!"BswModuleDependency" [k!"adminData", k!"desc", k!"variationPoint", k!"introduction", k!"annotations", k!"longName", k!"shortNameFragments"]
  (.node (.node .nil
    k!"RptExecutableEntity" [k!"adminData", k!"desc", k!"variationPoint", k!"introduction", k!"annotations", k!"longName", k!"shortNameFragments"]
    .nil)
   k!"RptExecutionContext" [k!"adminData", k!"desc", k!"variationPoint", k!"introduction", k!"annotations", k!"longName", k!"shortNameFragments"]
   .nil))
 k!"SwRecordLayoutGroup" [k!"desc", k!"swGenericAxisParamTypeRef"]
 (.node (.node (.node .nil
    k!"SwcInternalBehavior" [k!"includedDataTypeSets"]
    .nil)
   k!"BswDataReceivedEvent" [k!"adminData", k!"desc", k!"variationPoint", k!"introduction", k!"annotations", k!"longName", k!"shortNameFragments"]
   .nil)
  k!"NvDataPortAnnotation" [k!"annotationOrigin", k!"annotationText", k!"label"]
  (.node (.node .nil
    k!"EventControlledTiming" [k!"adminData", k!"category", k!"desc", k!"introduction"]
    .nil)
   k!"HwAttributeLiteralDef" [k!"value"]
   .nil)))

def writtenOnly05 : Bst (List Key) :=
 .node writtenOnly03 k!"BswModeSwitchEvent" [k!"adminData", k!"desc", k!"variationPoint", k!"introduction", k!"annotations", k!"longName", k!"shortNameFragments"] writtenOnly04

def writtenOnly06 : Bst (List Key) :=
 .node writtenOnly02 k!"ModeAccessPoint" [k!"ident"] writtenOnly05

def writtenOnly07 : Bst (List Key) :=
 (.node (.node (.node (.node .nil
    k!"ClientServerAnnotation" [k!"annotationOrigin", k!"annotationText", k!"label"]
    .nil)
   k!"FlatInstanceDescriptor" [k!"role", k!"swDataDefProps"]
   (.node .nil
    k!"SocketConnectionBundle" [k!"shortNameFragments"]
    .nil))
  k!"BswModeSwitchedAckEvent" [k!"adminData", k!"desc", k!"variationPoint", k!"introduction", k!"annotations", k!"longName", k!"shortNameFragments"]
  (.node (.node .nil
    k!"DelegatedPortAnnotation" [k!"annotationOrigin", k!"annotationText", k!"label"]
    .nil)
   k!"InternalTriggeringPoint" [k!"swImplPolicy", k!"adminData", k!"desc", k!"variationPoint", k!"introduction", k!"annotations", k!"longName", k!"shortNameFragments"]
   .nil))
 k!"ParameterPortAnnotation" [k!"annotationOrigin", k!"annotationText", k!"label"]
 (.node (.node (.node .nil
    k!"BswModeManagerErrorEvent" [k!"adminData", k!"desc", k!"variationPoint", k!"introduction", k!"annotations", k!"longName", k!"shortNameFragments"]
    .nil)
   k!"BswOperationInvokedEvent" [k!"adminData", k!"desc", k!"variationPoint", k!"introduction", k!"annotations", k!"longName", k!"shortNameFragments"]
   .nil)
  k!"EcucDestinationUriDefSet" [k!"adminData", k!"desc", k!"variationPoint", k!"introduction", k!"annotations", k!"longName", k!"shortNameFragments"]
  (.node (.node .nil
    k!"RptExecutableEntityEvent" [k!"adminData", k!"desc", k!"variationPoint", k!"introduction", k!"annotations", k!"longName", k!"shortNameFragments"]
    .nil)
   k!"RteEventInEcuInstanceRef" [k!"baseRef"]
   .nil)))

def writtenOnly08 : Bst (List Key) :=
 (.node (.node (.node (.node .nil
    k!"BswServiceDependencyIdent" [k!"adminData", k!"desc", k!"variationPoint", k!"introduction", k!"annotations", k!"longName", k!"shortNameFragments"]
    .nil)
   k!"ExclusiveAreaNestingOrder" [k!"shortNameFragments"]
   (.node .nil
    k!"BswInternalTriggeringPoint" [k!"swImplPolicy"]
    .nil))
  k!"RModeInAtomicSwcInstanceRef" [k!"baseRef"]
  (.node (.node .nil
    k!"ClientServerOperationMapping" [k!"firstToSecondDataTransformationRef"]
    .nil)
   k!"ComponentInSystemInstanceRef" [k!"contextComponentRefs"]
   .nil))
 k!"EthernetPriorityRegeneration" [k!"shortNameFragments"]
 (.node (.node (.node .nil
    k!"ExternalTriggeringPointIdent" [k!"adminData", k!"desc", k!"variationPoint", k!"introduction", k!"annotations", k!"longName", k!"shortNameFragments"]
    .nil)
   k!"PPortInCompositionInstanceRef" [k!"baseRef"]
   .nil)
  k!"RPortInCompositionInstanceRef" [k!"baseRef"]
  (.node (.node .nil
    k!"SenderReceiverToSignalMapping" [k!"introduction"]
    .nil)
   k!"VariableAccessInEcuInstanceRef" [k!"baseRef"]
   .nil)))

def writtenOnly09 : Bst (List Key) :=
 .node writtenOnly07 k!"SenderReceiverAnnotation" [k!"annotationOrigin", k!"annotationText", k!"label"] writtenOnly08

def writtenOnly10 : Bst (List Key) :=
 (.node (.node (.node (.node .nil
    k!"BswInternalTriggerOccurredEvent" [k!"adminData", k!"desc", k!"variationPoint", k!"introduction", k!"annotations", k!"longName", k!"shortNameFragments"]
    .nil)
   k!"IncludedModeDeclarationGroupSet" [k!"prefix"]
   (.node .nil
    k!"IoHwAbstractionServerAnnotation" [k!"annotationOrigin", k!"annotationText", k!"label"]
    .nil))
  k!"PModeGroupInAtomicSwcInstanceRef" [k!"targetRef"]
  (.node (.node .nil
    k!"POperationInAtomicSwcInstanceRef" [k!"baseRef", k!"contextPortRef"]
    .nil)
   k!"RModeGroupInAtomicSWCInstanceRef" [k!"targetRef"]
   .nil))
 k!"ROperationInAtomicSwcInstanceRef" [k!"baseRef", k!"contextPortRef"]
 (.node (.node (.node .nil
    k!"EndToEndTransformationComSpecProps" [k!"clearFromValidToInvalid", k!"disableEndToEndCheck", k!"disableEndToEndStateMachine", k!"e2eProfileCompatibilityPropsRef", k!"maxDeltaCounter", k!"maxErrorStateInit", k!"maxErrorStateInvalid", k!"maxErrorStateValid", k!"maxNoNewOrRepeatedData", k!"minOkStateInit", k!"minOkStateInvalid", k!"minOkStateValid", k!"syncCounterInit", k!"windowSizeInit", k!"windowSizeInvalid", k!"windowSizeValid", k!"adminData", k!"category", k!"desc", k!"introduction"]
    .nil)
   k!"PTriggerInAtomicSwcTypeInstanceRef" [k!"baseRef", k!"contextPortRef", k!"targetRef"]
   .nil)
  k!"SenderReceiverToSignalGroupMapping" [k!"introduction"]
  (.node (.node .nil
    k!"VariableInAtomicSWCTypeInstanceRef" [k!"baseRef", k!"contextDataPrototypeRefs"]
    .nil)
   k!"ParameterInAtomicSWCTypeInstanceRef" [k!"baseRef"]
   .nil)))

def writtenOnly11 : Bst (List Key) :=
 (.node (.node (.node (.node .nil
    k!"InstanceEventInCompositionInstanceRef" [k!"baseRef"]
    .nil)
   k!"ModeInBswModuleDescriptionInstanceRef" [k!"baseRef"]
   (.node .nil
    k!"UserDefinedTransformationComSpecProps" [k!"adminData", k!"category", k!"desc", k!"introduction"]
    .nil))
  k!"InnerPortGroupInCompositionInstanceRef" [k!"baseRef"]
  (.node (.node .nil
    k!"RunnableEntityInCompositionInstanceRef" [k!"baseRef"]
    .nil)
   k!"CanControllerFdConfigurationRequirements" [k!"paddingValue"]
   .nil))
 k!"VariableDataPrototypeInSystemInstanceRef" [k!"baseRef"]
 (.node (.node (.node .nil
    k!"VariableDataPrototypeInCompositionInstanceRef" [k!"baseRef"]
    .nil)
   k!"DataPrototypeInClientServerInterfaceInstanceRef" [k!"dataPrototypeInClientServerInterface", k!"tagId"]
   .nil)
  k!"InnerDataPrototypeGroupInCompositionInstanceRef" [k!"baseRef"]
  (.node (.node .nil
    k!"InnerRunnableEntityGroupInCompositionInstanceRef" [k!"baseRef"]
    .nil)
   k!"ApplicationCompositeElementInPortInterfaceInstanceRef" [k!"baseRef"]
   .nil)))

def writtenOnly12 : Bst (List Key) :=
 .node writtenOnly10 k!"BswAsynchronousServerCallReturnsEvent" [k!"adminData", k!"desc", k!"variationPoint", k!"introduction", k!"annotations", k!"longName", k!"shortNameFragments"] writtenOnly11

def writtenOnly13 : Bst (List Key) :=
 .node writtenOnly09 k!"BswExternalTriggerOccurredEvent" [k!"adminData", k!"desc", k!"variationPoint", k!"introduction", k!"annotations", k!"longName", k!"shortNameFragments"] writtenOnly12

def writtenOnly14 : Bst (List Key) :=
 .node writtenOnly06 k!"TriggerPortAnnotation" [k!"annotationOrigin", k!"annotationText", k!"label"] writtenOnly13

/-- for classes: such attributes that the writer looks at -/
def writtenOnly : Bst (List Key) := writtenOnly14

end Verif.Gen
