import Verif.Model.Bst
import Verif.Model.Codec
-- generated by tools/gen_codec.py; do not edit
namespace Verif.Gen
open Verif Verif.Model

def overTable00 : Bst (List Key) :=
 (.node (.node (.node (.node (.node .nil
     k!"readARPackage" [k!"longName", k!"category", k!"desc", k!"introduction"]
     .nil)
    k!"readLinker_Linker" [k!"longName", k!"category", k!"desc", k!"introduction"]
    .nil)
   k!"readChapter_Chapter" [k!"longName", k!"category", k!"desc", k!"introduction"]
   (.node .nil
    k!"readCompiler_Compiler" [k!"longName", k!"category", k!"desc", k!"introduction"]
    .nil))
  k!"readCodeDescriptor_Code" [k!"longName", k!"category", k!"desc", k!"introduction"]
  (.node (.node .nil
    k!"readPortGroup_PortGroup" [k!"longName", k!"category", k!"desc", k!"introduction"]
    .nil)
   k!"readARPackages_ARPackage" [k!"longName", k!"category", k!"desc", k!"introduction"]
   (.node .nil
    k!"readARPackageElements_NPdu" [k!"longName", k!"category", k!"desc", k!"introduction"]
    .nil)))
 k!"readARPackageElements_Unit" [k!"longName", k!"category", k!"desc", k!"introduction"]
 (.node (.node (.node (.node .nil
     k!"readNmConfigNmIfEcus_NmEcu" [k!"longName", k!"category", k!"desc", k!"introduction"]
     .nil)
    k!"readARPackageElements_NmPdu" [k!"longName", k!"category", k!"desc", k!"introduction"]
    .nil)
   k!"readARPackageElements_System" [k!"longName", k!"category", k!"desc", k!"introduction", k!"ecuExtractVersion", k!"systemVersion"]
   (.node .nil
    k!"readARPackageElements_DcmIPdu" [k!"longName", k!"category", k!"desc", k!"introduction", k!"diagPduType"]
    .nil))
  k!"readARPackageElements_FlatMap" [k!"longName", k!"category", k!"desc", k!"introduction"]
  (.node (.node .nil
    k!"readARPackageElements_Gateway" [k!"longName", k!"category", k!"desc", k!"introduction", k!"ecuRef"]
    .nil)
   k!"readARPackageElements_ISignal" [k!"longName", k!"category", k!"desc", k!"introduction"]
   (.node .nil
    k!"readARPackageElements_McGroup" [k!"longName", k!"category", k!"desc", k!"introduction"]
    .nil))))

def overTable01 : Bst (List Key) :=
 (.node (.node (.node (.node (.node .nil
     k!"readARPackageElements_NmConfig" [k!"longName", k!"category", k!"desc", k!"introduction"]
     .nil)
    k!"readKeywordSetKeywords_Keyword" [k!"longName", k!"category", k!"desc", k!"introduction"]
    .nil)
   k!"readNmClusterNmNodes_CanNmNode" [k!"longName", k!"category", k!"desc", k!"introduction", k!"nmCarWakeUpRxEnabled", k!"nmMsgCycleOffset", k!"nmMsgReducedTime", k!"nmRangeConfig"]
   (.node .nil
    k!"readNmClusterNmNodes_UdpNmNode" [k!"longName", k!"category", k!"desc", k!"introduction"]
    .nil))
  k!"readARPackageElements_SwcTiming" [k!"longName", k!"category", k!"desc", k!"introduction"]
  (.node (.node .nil
    k!"readARPackageElements_CanCluster" [k!"longName", k!"category", k!"desc", k!"introduction"]
    .nil)
   k!"readARPackageElements_Collection" [k!"longName", k!"category", k!"desc", k!"introduction"]
   (.node .nil
    k!"readARPackageElements_DataConstr" [k!"longName", k!"category", k!"desc", k!"introduction"]
    .nil)))
 k!"readARPackageElements_HwCategory" [k!"longName", k!"category", k!"desc", k!"introduction"]
 (.node (.node (.node (.node .nil
     k!"readARPackageElements_KeywordSet" [k!"longName", k!"category", k!"desc", k!"introduction"]
     .nil)
    k!"readARPackageElements_LinCluster" [k!"longName", k!"category", k!"desc", k!"introduction"]
    .nil)
   k!"readARPackageElements_McFunction" [k!"longName", k!"category", k!"desc", k!"introduction"]
   (.node .nil
    k!"readARPackageElements_SwBaseType" [k!"longName", k!"category", k!"desc", k!"introduction"]
    .nil))
  k!"readCanTpConfigTpNodes_CanTpNode" [k!"longName", k!"category", k!"desc", k!"introduction"]
  (.node (.node .nil
    k!"readHeapUsages_MeasuredHeapUsage" [k!"longName", k!"category", k!"desc", k!"introduction"]
    .nil)
   k!"readLinTpConfigTpNodes_LinTpNode" [k!"longName", k!"category", k!"desc", k!"introduction"]
   (.node .nil
    k!"readMemorySections_MemorySection" [k!"longName", k!"category", k!"desc", k!"introduction"]
    .nil))))

def overTable02 : Bst (List Key) :=
 .node overTable00 k!"readARPackageElements_CanFrame" [k!"longName", k!"category", k!"desc", k!"introduction"] overTable01

def overTable03 : Bst (List Key) :=
 (.node (.node (.node (.node (.node .nil
     k!"readSystemMappings_SystemMapping" [k!"longName", k!"category", k!"desc", k!"introduction"]
     .nil)
    k!"readARPackageElements_CanTpConfig" [k!"longName", k!"category", k!"desc", k!"introduction"]
    .nil)
   k!"readARPackageElements_CompuMethod" [k!"longName", k!"category", k!"desc", k!"introduction", k!"unitRef", k!"compuInternalToPhys", k!"compuPhysToInternal"]
   (.node .nil
    k!"readARPackageElements_EcuInstance" [k!"longName", k!"category", k!"desc", k!"introduction", k!"channelSynchronousWakeup", k!"comConfigurationGwTimeBase", k!"comConfigurationRxTimeBase", k!"comConfigurationTxTimeBase", k!"comEnableMDTForCyclicTransmission", k!"ethSwitchPortGroupDerivation", k!"pncNmRequest", k!"pncPrepareSleepTimer", k!"pncSynchronousWakeup", k!"pnResetTime", k!"sleepModeSupported", k!"tcpIpIcmpPropsRef", k!"tcpIpPropsRef", k!"v2xSupported", k!"wakeUpOverBusSupported"]
    .nil))
  k!"readARPackageElements_ISignalIPdu" [k!"longName", k!"category", k!"desc", k!"introduction"]
  (.node (.node .nil
    k!"readARPackageElements_LinTpConfig" [k!"longName", k!"category", k!"desc", k!"introduction"]
    .nil)
   k!"readARPackageElements_SecuredIPdu" [k!"longName", k!"category", k!"desc", k!"introduction"]
   (.node .nil
    k!"readErrorTracerNeeds_RuntimeError" [k!"longName", k!"category", k!"desc", k!"introduction"]
    .nil)))
 k!"readHeapUsages_WorstCaseHeapUsage" [k!"longName", k!"category", k!"desc", k!"introduction"]
 (.node (.node (.node (.node .nil
     k!"readARPackageElements_DoIpTpConfig" [k!"longName", k!"category", k!"desc", k!"introduction"]
     .nil)
    k!"readARPackageElements_FlexrayFrame" [k!"longName", k!"category", k!"desc", k!"introduction"]
    .nil)
   k!"readARPackageElements_ISignalGroup" [k!"longName", k!"category", k!"desc", k!"introduction"]
   (.node .nil
    k!"readARPackageElements_SwAddrMethod" [k!"longName", k!"category", k!"desc", k!"introduction"]
    .nil))
  k!"readARPackageElements_SystemSignal" [k!"longName", k!"category", k!"desc", k!"introduction", k!"dynamicLength", k!"physicalProps"]
  (.node (.node .nil
    k!"readNvBlockDescriptor_NvBlockNeeds" [k!"longName", k!"category", k!"desc", k!"introduction", k!"calcRamBlockCrc", k!"checkStaticBlockId", k!"nDataSets", k!"nRomBlocks", k!"ramBlockStatusControl", k!"readonly", k!"reliability", k!"resistantToChangedSw", k!"restoreAtStart", k!"storeAtShutdown", k!"storeCyclic", k!"storeEmergency", k!"storeImmediate", k!"useAutoValidationAtShutDown", k!"useCRCCompMechanism", k!"writeOnlyOnce", k!"writeVerification", k!"writingFrequency", k!"writingPriority"]
    .nil)
   k!"readStackUsages_MeasuredStackUsage" [k!"longName", k!"category", k!"desc", k!"introduction"]
   (.node .nil
    k!"readARPackageElements_Documentation" [k!"longName", k!"category", k!"desc", k!"introduction"]
    .nil))))

def overTable04 : Bst (List Key) :=
 (.node (.node (.node (.node (.node .nil
     k!"readARPackageElements_SwSystemconst" [k!"longName", k!"category", k!"desc", k!"introduction", k!"swDataDefProps"]
     .nil)
    k!"readARPackageElements_SwcBswMapping" [k!"longName", k!"category", k!"desc", k!"introduction", k!"bswBehaviorRef", k!"swcBehaviorRef"]
    .nil)
   k!"readErrorTracerNeeds_TransientFault" [k!"longName", k!"category", k!"desc", k!"introduction"]
   (.node .nil
    k!"readNmConfigNmClusters_CanNmCluster" [k!"longName", k!"category", k!"desc", k!"introduction", k!"communicationClusterRef", k!"nmChannelId", k!"nmChannelSleepMaster", k!"_nmSynchronizingNetwork", k!"nmBusloadReductionActive", k!"nmCarWakeUpRxEnabled", k!"nmCbvPosition", k!"nmChannelActive", k!"nmImmediateNmCycleTime", k!"nmImmediateNmTransmissions", k!"nmMessageTimeoutTime", k!"nmMsgCycleTime", k!"nmNetworkTimeout", k!"nmNidPosition", k!"nmRemoteSleepIndicationTime", k!"nmRepeatMessageTime", k!"nmUserDataLength", k!"nmWaitBusSleepTime"]
    .nil))
  k!"readNmConfigNmClusters_UdpNmCluster" [k!"longName", k!"category", k!"desc", k!"introduction", k!"communicationClusterRef", k!"nmChannelId", k!"nmChannelSleepMaster", k!"_nmSynchronizingNetwork"]
  (.node (.node .nil
    k!"readPossibleErrors_ApplicationError" [k!"longName", k!"category", k!"desc", k!"introduction"]
    .nil)
   k!"readStackUsages_WorstCaseStackUsage" [k!"longName", k!"category", k!"desc", k!"introduction"]
   (.node .nil
    k!"_readVariableAccesses_VariableAccess" [k!"longName", k!"category", k!"desc", k!"introduction"]
    .nil)))
 k!"readARPackageElements_BswModuleEntry" [k!"longName", k!"category", k!"desc", k!"introduction"]
 (.node (.node (.node (.node .nil
     k!"readARPackageElements_FlexrayCluster" [k!"longName", k!"category", k!"desc", k!"introduction"]
     .nil)
    k!"readARPackageElements_SwRecordLayout" [k!"longName", k!"category", k!"desc", k!"introduction", k!"swRecordLayoutGroup"]
    .nil)
   k!"readARPackageElements_UserDefinedPdu" [k!"longName", k!"category", k!"desc", k!"introduction", k!"cddType"]
   (.node .nil
    k!"readLinTpConfigTpAddresses_TpAddress" [k!"longName", k!"category", k!"desc", k!"introduction"]
    .nil))
  k!"readARPackageElements_EthernetCluster" [k!"longName", k!"category", k!"desc", k!"introduction"]
  (.node (.node .nil
    k!"readARPackageElements_MultiplexedIPdu" [k!"longName", k!"category", k!"desc", k!"introduction"]
    .nil)
   k!"readARPackageElements_NvDataInterface" [k!"longName", k!"category", k!"desc", k!"introduction"]
   (.node .nil
    k!"readARPackageElements_UserDefinedIPdu" [k!"longName", k!"category", k!"desc", k!"introduction", k!"cddType"]
    .nil))))

def overTable05 : Bst (List Key) :=
 .node overTable03 k!"readARPackageElements_EcucModuleDef" [k!"longName", k!"category", k!"desc", k!"introduction"] overTable04

def overTable06 : Bst (List Key) :=
 .node overTable02 k!"readNmClusterNmNodes_J1939NmNode" [k!"longName", k!"category", k!"desc", k!"introduction"] overTable05

def overTable07 : Bst (List Key) :=
 (.node (.node (.node (.node (.node .nil
     k!"readErrorTracerNeeds_DevelopmentError" [k!"longName", k!"category", k!"desc", k!"introduction"]
     .nil)
    k!"readHeapUsages_RoughEstimateHeapUsage" [k!"longName", k!"category", k!"desc", k!"introduction"]
    .nil)
   k!"readARPackageElements_ConsistencyNeeds" [k!"longName", k!"category", k!"desc", k!"introduction"]
   (.node .nil
    k!"readARPackageElements_ISignalIPduGroup" [k!"longName", k!"category", k!"desc", k!"introduction", k!"communicationDirection", k!"communicationMode"]
    .nil))
  k!"readARPackageElements_LifeCycleInfoSet" [k!"longName", k!"category", k!"desc", k!"introduction"]
  (.node (.node .nil
    k!"readARPackageElements_SoAdRoutingGroup" [k!"longName", k!"category", k!"desc", k!"introduction"]
    .nil)
   k!"readARPackageElements_TriggerInterface" [k!"longName", k!"category", k!"desc", k!"introduction"]
   (.node .nil
    k!"readCanTpConfigTpChannels_CanTpChannel" [k!"longName", k!"category", k!"desc", k!"introduction"]
    .nil)))
 k!"readRunnableEntityWaitPoints_WaitPoint" [k!"longName", k!"category", k!"desc", k!"introduction"]
 (.node (.node (.node (.node .nil
     k!"readARPackageElements_BswImplementation" [k!"longName", k!"category", k!"desc", k!"introduction"]
     .nil)
    k!"readARPackageElements_GeneralPurposePdu" [k!"longName", k!"category", k!"desc", k!"introduction"]
    .nil)
   k!"readARPackageElements_PhysicalDimension" [k!"longName", k!"category", k!"desc", k!"introduction"]
   (.node .nil
    k!"readARPackageElements_PredefinedVariant" [k!"longName", k!"category", k!"desc", k!"introduction"]
    .nil))
  k!"readARPackageElements_SwcImplementation" [k!"longName", k!"category", k!"desc", k!"introduction", k!"behaviorRef"]
  (.node (.node .nil
    k!"readARPackageElements_SystemSignalGroup" [k!"longName", k!"category", k!"desc", k!"introduction"]
    .nil)
   k!"readCanTpConfigTpAddresses_CanTpAddress" [k!"longName", k!"category", k!"desc", k!"introduction"]
   (.node .nil
    k!"readStackUsages_RoughEstimateStackUsage" [k!"longName", k!"category", k!"desc", k!"introduction"]
    .nil))))

def overTable08 : Bst (List Key) :=
 (.node (.node (.node (.node (.node .nil
     k!"readSwComponentTypePorts_RPortPrototype" [k!"longName", k!"category", k!"desc", k!"introduction", k!"requiredInterfaceTRef"]
     .nil)
    k!"readSwcInternalBehaviorEvents_InitEvent" [k!"longName", k!"category", k!"desc", k!"introduction"]
    .nil)
   k!"readARPackageElements_DataPrototypeGroup" [k!"longName", k!"category", k!"desc", k!"introduction"]
   (.node .nil
    k!"readARPackageElements_DataTypeMappingSet" [k!"longName", k!"category", k!"desc", k!"introduction"]
    .nil))
  k!"readARPackageElements_GeneralPurposeIPdu" [k!"longName", k!"category", k!"desc", k!"introduction"]
  (.node (.node .nil
    k!"readARPackageElements_ParameterInterface" [k!"longName", k!"category", k!"desc", k!"introduction"]
    .nil)
   k!"readBswModuleEntryArguments_SwServiceArg" [k!"longName", k!"category", k!"desc", k!"introduction"]
   (.node .nil
    k!"readEcuInstanceCommControllers_LinMaster" [k!"longName", k!"category", k!"desc", k!"introduction"]
    .nil)))
 k!"readExecutionTimes_AnalyzedExecutionTime" [k!"longName", k!"category", k!"desc", k!"introduction"]
 (.node (.node (.node (.node .nil
     k!"readExecutionTimes_MeasuredExecutionTime" [k!"longName", k!"category", k!"desc", k!"introduction"]
     .nil)
    k!"readHwAttributeDef_HwAttributeLiteralDef" [k!"longName", k!"category", k!"desc", k!"introduction"]
    .nil)
   k!"readPduToFrameMappings_PduToFrameMapping" [k!"longName", k!"category", k!"desc", k!"introduction"]
   (.node .nil
    k!"readSwComponentTypePorts_PRPortPrototype" [k!"longName", k!"category", k!"desc", k!"introduction", k!"providedRequiredInterface"]
    .nil))
  k!"readTransientFault_PossibleErrorReaction" [k!"longName", k!"category", k!"desc", k!"introduction"]
  (.node (.node .nil
    k!"readARPackageElements_EcucValueCollection" [k!"longName", k!"category", k!"desc", k!"introduction", k!"ecuExtractRef"]
    .nil)
   k!"readARPackageElements_ModeSwitchInterface" [k!"longName", k!"category", k!"desc", k!"introduction"]
   (.node .nil
    k!"readARPackageElements_RunnableEntityGroup" [k!"longName", k!"category", k!"desc", k!"introduction"]
    .nil))))

def overTable09 : Bst (List Key) :=
 .node overTable07 k!"readSwComponentTypePorts_PPortPrototype" [k!"longName", k!"category", k!"desc", k!"introduction", k!"providedInterfaceTRef"] overTable08

def overTable10 : Bst (List Key) :=
 (.node (.node (.node (.node (.node .nil
     k!"readExecutionTimes_SimulatedExecutionTime" [k!"longName", k!"category", k!"desc", k!"introduction"]
     .nil)
    k!"readSwcInternalBehaviorEvents_TimingEvent" [k!"longName", k!"category", k!"desc", k!"introduction"]
    .nil)
   k!"readARPackageElements_BswModuleDescription" [k!"longName", k!"category", k!"desc", k!"introduction"]
   (.node .nil
    k!"readARPackageElements_DiagnosticConnection" [k!"longName", k!"category", k!"desc", k!"introduction"]
    .nil))
  k!"readARPackageElements_GenericEthernetFrame" [k!"longName", k!"category", k!"desc", k!"introduction"]
  (.node (.node .nil
    k!"readARPackageElements_ModeDeclarationGroup" [k!"longName", k!"category", k!"desc", k!"introduction"]
    .nil)
   k!"readARPackageElements_ClientServerInterface" [k!"longName", k!"category", k!"desc", k!"introduction"]
   (.node .nil
    k!"readARPackageElements_ConstantSpecification" [k!"longName", k!"category", k!"desc", k!"introduction", k!"valueSpec"]
    .nil)))
 k!"readARPackageElements_DataTransformationSet" [k!"longName", k!"category", k!"desc", k!"introduction"]
 (.node (.node (.node (.node .nil
     k!"readARPackageElements_EndToEndProtectionSet" [k!"longName", k!"category", k!"desc", k!"introduction"]
     .nil)
    k!"readARPackageElements_LinUnconditionalFrame" [k!"longName", k!"category", k!"desc", k!"introduction"]
    .nil)
   k!"readFlatMapInstances_FlatInstanceDescriptor" [k!"longName", k!"category", k!"desc", k!"introduction", k!"upstreamReferenceIRef", k!"ecuExtractReferenceIRef"]
   (.node .nil
    k!"readHwCategoryHwAttributeDef_HwAttributeDef" [k!"longName", k!"category", k!"desc", k!"introduction"]
    .nil))
  k!"readNvBlockDescriptor_VariableDataPrototype" [k!"longName", k!"category", k!"desc", k!"introduction", k!"initValue"]
  (.node (.node .nil
    k!"readResourceConsumption_ResourceConsumption" [k!"longName", k!"category", k!"desc", k!"introduction"]
    .nil)
   k!"readSoAdConfigSocketAddresses_SocketAddress" [k!"longName", k!"category", k!"desc", k!"introduction", k!"connectorRef", k!"portAddress"]
   (.node .nil
    k!"readSystemMappingSwMappings_SwcToEcuMapping" [k!"longName", k!"category", k!"desc", k!"introduction", k!"ecuInstanceRef"]
    .nil))))

def overTable11 : Bst (List Key) :=
 (.node (.node (.node (.node (.node .nil
     k!"readARPackageElements_ImplementationDataType" [k!"longName", k!"category", k!"desc", k!"introduction", k!"swDataDefProps"]
     .nil)
    k!"readARPackageElements_NvBlockSwComponentType" [k!"longName", k!"category", k!"desc", k!"introduction"]
    .nil)
   k!"readARPackageElements_PortPrototypeBlueprint" [k!"longName", k!"category", k!"desc", k!"introduction"]
   (.node .nil
    k!"readARPackageElements_ServiceSwComponentType" [k!"longName", k!"category", k!"desc", k!"introduction"]
    .nil))
  k!"readNvBlockDescriptor_ParameterDataPrototype" [k!"longName", k!"category", k!"desc", k!"introduction"]
  (.node (.node .nil
    k!"readNvBlockSwComponentType_NvBlockDescriptor" [k!"longName", k!"category", k!"desc", k!"introduction"]
    .nil)
   k!"readARPackageElements_PortInterfaceMappingSet" [k!"longName", k!"category", k!"desc", k!"introduction"]
   (.node .nil
    k!"readARPackageElements_SenderReceiverInterface" [k!"longName", k!"category", k!"desc", k!"introduction"]
    .nil)))
 k!"readDependencyOnArtifact_DependencyOnArtifact" [k!"longName", k!"category", k!"desc", k!"introduction"]
 (.node (.node (.node .nil
    k!"readISignalToPduMappings_ISignalToIPduMapping" [k!"longName", k!"category", k!"desc", k!"introduction"]
    .nil)
   k!"readSwcInternalBehaviorEvents_BackgroundEvent" [k!"longName", k!"category", k!"desc", k!"introduction"]
   (.node .nil
    k!"readSwcServiceDependency_SwcServiceDependency" [k!"longName", k!"category", k!"desc", k!"introduction"]
    .nil))
  k!"readARPackageElements_ApplicationArrayDataType" [k!"longName", k!"category", k!"desc", k!"introduction", k!"swDataDefProps"]
  (.node (.node .nil
    k!"readARPackageElements_EcucDefinitionCollection" [k!"longName", k!"category", k!"desc", k!"introduction"]
    .nil)
   k!"readARPackageElements_SwSystemconstantValueSet" [k!"longName", k!"category", k!"desc", k!"introduction"]
   (.node .nil
    k!"readPortInterfaceMappings_ModeInterfaceMapping" [k!"longName", k!"category", k!"desc", k!"introduction"]
    .nil))))

def overTable12 : Bst (List Key) :=
 .node overTable10 k!"readARPackageElements_DiagnosticServiceTable" [k!"longName", k!"category", k!"desc", k!"introduction"] overTable11

def overTable13 : Bst (List Key) :=
 .node overTable09 k!"readEndToEndProtection_EndToEndProtection" [k!"longName", k!"category", k!"desc", k!"introduction"] overTable12

def overTable14 : Bst (List Key) :=
 .node overTable06 k!"readEcucValidationCondition_EcucQuery" [k!"longName", k!"category", k!"desc", k!"introduction"] overTable13

def overTable15 : Bst (List Key) :=
 (.node (.node (.node (.node (.node .nil
     k!"readARPackageElements_ModeDeclarationMappingSet" [k!"longName", k!"category", k!"desc", k!"introduction"]
     .nil)
    k!"readARPackageElements_PostBuildVariantCriterion" [k!"longName", k!"category", k!"desc", k!"introduction"]
    .nil)
   k!"readBswInternalBehaviorEntities_BswCalledEntity" [k!"longName", k!"category", k!"desc", k!"introduction"]
   (.node .nil
    k!"readEcucContainerDefReferences_EcucReferenceDef" [k!"longName", k!"category", k!"desc", k!"introduction"]
    .nil))
  k!"readExecutionTimes_RoughEstimateOfExecutionTime" [k!"longName", k!"category", k!"desc", k!"introduction"]
  (.node (.node .nil
    k!"readNvBlockSwComponentType_BulkNvDataDescriptor" [k!"longName", k!"category", k!"desc", k!"introduction"]
    .nil)
   k!"readPhysicalChannelPduTriggerings_PduTriggering" [k!"longName", k!"category", k!"desc", k!"introduction", k!"iPduRef"]
   (.node .nil
    k!"readSwcInternalBehaviorEvents_DataReceivedEvent" [k!"longName", k!"category", k!"desc", k!"introduction"]
    .nil)))
 k!"readSwcInternalBehaviorRunnables_RunnableEntity" [k!"longName", k!"category", k!"desc", k!"introduction"]
 (.node (.node (.node (.node .nil
     k!"readSystemMappingEcuResourceMappings_ECUMapping" [k!"longName", k!"category", k!"desc", k!"introduction"]
     .nil)
    k!"readARPackageElements_ApplicationSwComponentType" [k!"longName", k!"category", k!"desc", k!"introduction"]
    .nil)
   k!"readARPackageElements_CompositionSwComponentType" [k!"longName", k!"category", k!"desc", k!"introduction"]
   (.node .nil
    k!"readBswModuleDescriptionRequiredTriggers_Trigger" [k!"longName", k!"category", k!"desc", k!"introduction"]
    .nil))
  k!"readBswServiceDependencyServiceNeeds_IdsMgrNeeds" [k!"longName", k!"category", k!"desc", k!"introduction"]
  (.node (.node .nil
    k!"readEcucContainerDefParameters_EcucFloatParamDef" [k!"longName", k!"category", k!"desc", k!"introduction"]
    .nil)
   k!"readSwcInternalBehaviorEvents_SwcModeSwitchEvent" [k!"longName", k!"category", k!"desc", k!"introduction"]
   (.node .nil
    k!"readSystemMappingSwImplMappings_SwcToImplMapping" [k!"longName", k!"category", k!"desc", k!"introduction"]
    .nil))))

def overTable16 : Bst (List Key) :=
 (.node (.node (.node (.node (.node .nil
     k!"readARPackageElements_ServiceProxySwComponentType" [k!"longName", k!"category", k!"desc", k!"introduction"]
     .nil)
    k!"readBswServiceDependencyServiceNeeds_DltUserNeeds" [k!"longName", k!"category", k!"desc", k!"introduction"]
    .nil)
   k!"readEOCExecutableEntityRef_EOCExecutableEntityRef" [k!"longName", k!"category", k!"desc", k!"introduction"]
   (.node .nil
    k!"readEcucContainerDefParameters_EcucStringParamDef" [k!"longName", k!"category", k!"desc", k!"introduction"]
    .nil))
  k!"readARPackageElements_ApplicationPrimitiveDataType" [k!"longName", k!"category", k!"desc", k!"introduction", k!"swDataDefProps"]
  (.node (.node .nil
    k!"readARPackageElements_E2EProfileCompatibilityProps" [k!"longName", k!"category", k!"desc", k!"introduction"]
    .nil)
   k!"readBswInternalBehaviorEntities_BswInterruptEntity" [k!"longName", k!"category", k!"desc", k!"introduction", k!"interruptCategory", k!"interruptSource"]
   (.node .nil
    k!"readBswInternalBehaviorEvents_BswDataReceivedEvent" [k!"dataRef"]
    .nil)))
 k!"readEcucContainerDefParameters_EcucBooleanParamDef" [k!"longName", k!"category", k!"desc", k!"introduction"]
 (.node (.node (.node (.node .nil
     k!"readEcucContainerDefParameters_EcucFunctionNameDef" [k!"longName", k!"category", k!"desc", k!"introduction"]
     .nil)
    k!"readEcucContainerDefParameters_EcucIntegerParamDef" [k!"longName", k!"category", k!"desc", k!"introduction"]
    .nil)
   k!"readEcucDestinationUriDefSet_EcucDestinationUriDef" [k!"longName", k!"category", k!"desc", k!"introduction"]
   (.node .nil
    k!"readEcucModuleDefContainers_EcucChoiceContainerDef" [k!"longName", k!"category", k!"desc", k!"introduction"]
    .nil))
  k!"readSwcInternalBehaviorEvents_ModeSwitchedAckEvent" [k!"longName", k!"category", k!"desc", k!"introduction"]
  (.node (.node .nil
    k!"readARPackageElements_EcuAbstractionSwComponentType" [k!"longName", k!"category", k!"desc", k!"introduction"]
    .nil)
   k!"readARPackageElements_EcucModuleConfigurationValues" [k!"longName", k!"category", k!"desc", k!"introduction", k!"definitionRef", k!"ecucDefEdition", k!"implementationConfigVariant", k!"moduleDescriptionRef", k!"postBuildVariantUsed"]
   (.node .nil
    k!"readARPackageElements_SensorActuatorSwComponentType" [k!"longName", k!"category", k!"desc", k!"introduction"]
    .nil))))

def overTable17 : Bst (List Key) :=
 .node overTable15 k!"readARPackageElements_SecureCommunicationPropsSet" [k!"longName", k!"category", k!"desc", k!"introduction"] overTable16

def overTable18 : Bst (List Key) :=
 (.node (.node (.node (.node (.node .nil
     k!"readBswModuleEntityDataSendPoints_BswVariableAccess" [k!"accessedVariableRef"]
     .nil)
    k!"readDoIpTpConfigDoIpLogicAddresses_DoIpLogicAddress" [k!"longName", k!"category", k!"desc", k!"introduction"]
    .nil)
   k!"readEcuInstanceConnectors_CanCommunicationConnector" [k!"longName", k!"category", k!"desc", k!"introduction", k!"commControllerRef", k!"pncGatewayType"]
   (.node .nil
    k!"readEcuInstanceConnectors_LinCommunicationConnector" [k!"longName", k!"category", k!"desc", k!"introduction", k!"commControllerRef", k!"pncGatewayType"]
    .nil))
  k!"readNmPduISignalToIPduMappings_ISignalToIPduMapping" [k!"longName", k!"category", k!"desc", k!"introduction"]
  (.node (.node .nil
    k!"readRunnableEntityParameterAccesses_ParameterAccess" [k!"longName", k!"category", k!"desc", k!"introduction", k!"accessedParameter"]
    .nil)
   k!"readSwcInternalBehaviorEvents_OperationInvokedEvent" [k!"longName", k!"category", k!"desc", k!"introduction"]
   (.node .nil
    k!"readBswInternalBehaviorEntities_BswSchedulableEntity" [k!"longName", k!"category", k!"desc", k!"introduction"]
    .nil)))
 k!"readBswServiceDependencyServiceNeeds_ComMgrUserNeeds" [k!"longName", k!"category", k!"desc", k!"introduction"]
 (.node (.node (.node (.node .nil
     k!"readSwcInternalBehaviorEvents_DataSendCompletedEvent" [k!"longName", k!"category", k!"desc", k!"introduction", k!"eventSourceRef"]
     .nil)
    k!"readBswServiceDependencyServiceNeeds_ErrorTracerNeeds" [k!"longName", k!"category", k!"desc", k!"introduction"]
    .nil)
   k!"readEcucContainerDefReferences_EcucChoiceReferenceDef" [k!"longName", k!"category", k!"desc", k!"introduction"]
   (.node .nil
    k!"readEcucModuleDefContainers_EcucParamConfContainerDef" [k!"longName", k!"category", k!"desc", k!"introduction"]
    .nil))
  k!"readExecutionOrderConstraint_ExecutionOrderConstraint" [k!"longName", k!"category", k!"desc", k!"introduction"]
  (.node (.node .nil
    k!"readLinPhysicalChannelScheduleTables_LinScheduleTable" [k!"longName", k!"category", k!"desc", k!"introduction"]
    .nil)
   k!"readProvidedServiceInstanceEventHandlers_EventHandler" [k!"longName", k!"category", k!"desc", k!"introduction"]
   (.node .nil
    k!"readARPackageElements_SignalServiceTranslationPropsSet" [k!"longName", k!"category", k!"desc", k!"introduction"]
    .nil))))

def overTable19 : Bst (List Key) :=
 (.node (.node (.node (.node (.node .nil
     k!"readPhysicalChannelFrameTriggerings_CanFrameTriggering" [k!"longName", k!"category", k!"desc", k!"introduction", k!"frameRef", k!"canAddressingMode", k!"canFdFrameSupport", k!"canFrameRxBehavior", k!"canFrameTxBehavior", k!"identifier", k!"rxIdentifierRange"]
     .nil)
    k!"readPhysicalChannelFrameTriggerings_LinFrameTriggering" [k!"longName", k!"category", k!"desc", k!"introduction", k!"frameRef"]
    .nil)
   k!"readPortInterfaceMappings_ClientServerInterfaceMapping" [k!"longName", k!"category", k!"desc", k!"introduction"]
   (.node .nil
    k!"readSoAdConfigConnectionBundles_SocketConnectionBundle" [k!"serverPortRef"]
    .nil))
  k!"readBswServiceDependencyServiceNeeds_CryptoServiceNeeds" [k!"longName", k!"category", k!"desc", k!"introduction", k!"maximumKeyLength"]
  (.node (.node .nil
    k!"readBswServiceDependencyServiceNeeds_ObdPidServiceNeeds" [k!"longName", k!"category", k!"desc", k!"introduction"]
    .nil)
   k!"readCommunicationConnectorEcuCommPortInstances_IPduPort" [k!"longName", k!"category", k!"desc", k!"introduction"]
   (.node .nil
    k!"readEcuInstanceConnectors_FlexrayCommunicationConnector" [k!"longName", k!"category", k!"desc", k!"introduction", k!"commControllerRef", k!"pncGatewayType"]
    .nil)))
 k!"readEcucContainerDefReferences_EcucInstanceReferenceDef" [k!"longName", k!"category", k!"desc", k!"introduction"]
 (.node (.node (.node .nil
    k!"readEthernetClusterMacMulticastGroups_MacMulticastGroup" [k!"longName", k!"category", k!"desc", k!"introduction"]
    .nil)
   k!"readPhysicalChannelISignalTriggerings_ISignalTriggering" [k!"longName", k!"category", k!"desc", k!"introduction", k!"iSignalGroupRef", k!"iSignalRef"]
   (.node .nil
    k!"readARPackageElements_ComplexDeviceDriverSwComponentType" [k!"longName", k!"category", k!"desc", k!"introduction"]
    .nil))
  k!"readBswServiceDependencyServiceNeeds_ObdInfoServiceNeeds" [k!"longName", k!"category", k!"desc", k!"introduction"]
  (.node (.node .nil
    k!"readClientServerOperationArguments_ArgumentDataPrototype" [k!"longName", k!"category", k!"desc", k!"introduction"]
    .nil)
   k!"readCommunicationConnectorEcuCommPortInstances_FramePort" [k!"longName", k!"category", k!"desc", k!"introduction"]
   (.node .nil
    k!"readEcuInstanceConnectors_EthernetCommunicationConnector" [k!"longName", k!"category", k!"desc", k!"introduction", k!"commControllerRef", k!"pncGatewayType", k!"maximumTransmissionUnit"]
    .nil))))

def overTable20 : Bst (List Key) :=
 .node overTable18 k!"readEcucContainerDefParameters_EcucEnumerationParamDef" [k!"longName", k!"category", k!"desc", k!"introduction"] overTable19

def overTable21 : Bst (List Key) :=
 .node overTable17 k!"readApplicationArrayElement_ApplicationArrayElement" [k!"longName", k!"category", k!"desc", k!"introduction"] overTable20

def overTable22 : Bst (List Key) :=
 (.node (.node (.node (.node (.node .nil
     k!"readBswServiceDependencyServiceNeeds_DiagnosticValueNeeds" [k!"longName", k!"category", k!"desc", k!"introduction", k!"dataLength", k!"diagnosticValueAccess", k!"DidNumber", k!"fixedLength", k!"processingStyle"]
     .nil)
    k!"readBswServiceDependencyServiceNeeds_EcuStateMgrUserNeeds" [k!"longName", k!"category", k!"desc", k!"introduction"]
    .nil)
   k!"readBswServiceDependencyServiceNeeds_IndicatorStatusNeeds" [k!"longName", k!"category", k!"desc", k!"introduction"]
   (.node .nil
    k!"readBswServiceDependencyServiceNeeds_ObdRatioServiceNeeds" [k!"longName", k!"category", k!"desc", k!"introduction"]
    .nil))
  k!"readClientServerInterfaceOperations_ClientServerOperation" [k!"longName", k!"category", k!"desc", k!"introduction"]
  (.node (.node .nil
    k!"readDiagEventDebounceAlgorithm_DiagEventDebounceTimeBased" [k!"longName", k!"category", k!"desc", k!"introduction"]
    .nil)
   k!"readEcuInstanceCommControllers_CanCommunicationController" [k!"longName", k!"category", k!"desc", k!"introduction"]
   (.node .nil
    k!"readRootSwCompositionPrototype_RootSwCompositionPrototype" [k!"longName", k!"category", k!"desc", k!"introduction"]
    .nil)))
 k!"readSynchronousServerCallPoint_SynchronousServerCallPoint" [k!"longName", k!"category", k!"desc", k!"introduction", k!"timeout"]
 (.node (.node (.node (.node .nil
     k!"readCommunicationConnectorEcuCommPortInstances_ISignalPort" [k!"longName", k!"category", k!"desc", k!"introduction"]
     .nil)
    k!"readEcucContainerDefParameters_EcucMultilineStringParamDef" [k!"longName", k!"category", k!"desc", k!"introduction"]
    .nil)
   k!"readPhysicalChannelFrameTriggerings_FlexrayFrameTriggering" [k!"longName", k!"category", k!"desc", k!"introduction", k!"frameRef"]
   (.node .nil
    k!"readSwcInternalBehaviorEvents_InternalTriggerOccurredEvent" [k!"longName", k!"category", k!"desc", k!"introduction"]
    .nil))
  k!"readAsynchronousServerCallPoint_AsynchronousServerCallPoint" [k!"longName", k!"category", k!"desc", k!"introduction", k!"timeout"]
  (.node (.node .nil
    k!"readBswServiceDependencyServiceNeeds_DiagnosticRoutineNeeds" [k!"longName", k!"category", k!"desc", k!"introduction", k!"diagRoutineType", k!"RidNumber"]
    .nil)
   k!"readBswServiceDependencyServiceNeeds_ObdControlServiceNeeds" [k!"longName", k!"category", k!"desc", k!"introduction"]
   (.node .nil
    k!"readBswServiceDependencyServiceNeeds_ObdMonitorServiceNeeds" [k!"longName", k!"category", k!"desc", k!"introduction"]
    .nil))))

def overTable23 : Bst (List Key) :=
 (.node (.node (.node (.node (.node .nil
     k!"readCommunicationClusterPhysicalChannels_LinPhysicalChannel" [k!"longName", k!"category", k!"desc", k!"introduction"]
     .nil)
    k!"readEcucContainerDefReferences_EcucSymbolicNameReferenceDef" [k!"longName", k!"category", k!"desc", k!"introduction"]
    .nil)
   k!"readEcucContainerValueEcucContainerValue_EcucContainerValue" [k!"longName", k!"category", k!"desc", k!"introduction", k!"definitionRef"]
   (.node .nil
    k!"readEthernetPhysicalChannelNetworkEndPoints_NetworkEndpoint" [k!"longName", k!"category", k!"desc", k!"introduction", k!"infrastructureServices", k!"priority"]
    .nil))
  k!"readDiagEventDebounceAlgorithm_DiagEventDebounceCounterBased" [k!"longName", k!"category", k!"desc", k!"introduction"]
  (.node (.node .nil
    k!"readSwcInternalBehaviorPerInstanceMemories_PerInstanceMemory" [k!"longName", k!"category", k!"desc", k!"introduction", k!"initValue", k!"swDataDefProps", k!"type", k!"typeDefinition"]
    .nil)
   k!"readBswInternalBehaviorEvents_BswInternalTriggerOccurredEvent" [k!"eventSourceRef"]
   (.node .nil
    k!"readBswServiceDependencyServiceNeeds_DiagnosticEventInfoNeeds" [k!"longName", k!"category", k!"desc", k!"introduction"]
    .nil)))
 k!"readBswServiceDependencyServiceNeeds_DiagnosticIoControlNeeds" [k!"longName", k!"category", k!"desc", k!"introduction"]
 (.node (.node (.node (.node .nil
     k!"readBswServiceDependencyServiceNeeds_ObdRatioDenominatorNeeds" [k!"longName", k!"category", k!"desc", k!"introduction"]
     .nil)
    k!"readCompositionSwComponentTypeComponents_SwComponentPrototype" [k!"longName", k!"category", k!"desc", k!"introduction", k!"typeTRef"]
    .nil)
   k!"readEcuInstanceCommControllers_FlexrayCommunicationController" [k!"longName", k!"category", k!"desc", k!"introduction"]
   (.node .nil
    k!"readEcucEnumerationParamDefLiterals_EcucEnumerationLiteralDef" [k!"longName", k!"category", k!"desc", k!"introduction"]
    .nil))
  k!"readEthernetCommunicationControllerCouplingPorts_CouplingPort" [k!"longName", k!"category", k!"desc", k!"introduction"]
  (.node (.node .nil
    k!"readApplicationRecordDataTypeElements_ApplicationRecordElement" [k!"longName", k!"category", k!"desc", k!"introduction"]
    .nil)
   k!"readCompositionSwComponentTypeSwConnectors_AssemblySwConnector" [k!"longName", k!"category", k!"desc", k!"introduction"]
   (.node .nil
    k!"readEcuInstanceCommControllers_EthernetCommunicationController" [k!"longName", k!"category", k!"desc", k!"introduction"]
    .nil))))

def overTable24 : Bst (List Key) :=
 .node overTable22 k!"readCommunicationClusterPhysicalChannels_CanPhysicalChannel" [k!"longName", k!"category", k!"desc", k!"introduction"] overTable23

def overTable25 : Bst (List Key) :=
 (.node (.node (.node (.node (.node .nil
     k!"readPortInterfaceMappings_VariableAndParameterInterfaceMapping" [k!"longName", k!"category", k!"desc", k!"introduction"]
     .nil)
    k!"readCommunicationClusterPhysicalChannels_FlexrayPhysicalChannel" [k!"longName", k!"category", k!"desc", k!"introduction"]
    .nil)
   k!"readDataTransformationSetDataTransformations_DataTransformation" [k!"longName", k!"category", k!"desc", k!"introduction"]
   (.node .nil
    k!"readDiagEventDebounceAlgorithm_DiagEventDebounceMonitorInternal" [k!"longName", k!"category", k!"desc", k!"introduction"]
    .nil))
  k!"readAtomicSwComponentTypeSwcInternalBehavior_SwcInternalBehavior" [k!"longName", k!"category", k!"desc", k!"introduction"]
  (.node (.node .nil
    k!"readBswModuleDescriptionBswInternalBehaviors_BswInternalBehavior" [k!"longName", k!"category", k!"desc", k!"introduction"]
    .nil)
   k!"readCommunicationClusterPhysicalChannels_EthernetPhysicalChannel" [k!"longName", k!"category", k!"desc", k!"introduction", k!"soAdConfig"]
   (.node .nil
    k!"readCompositionSwComponentTypeSwConnectors_DelegationSwConnector" [k!"longName", k!"category", k!"desc", k!"introduction", k!"outerPortRef"]
    .nil)))
 k!"readSwcInternalBehaviorEvents_AsynchronousServerCallReturnsEvent" [k!"longName", k!"category", k!"desc", k!"introduction", k!"eventSourceRef"]
 (.node (.node (.node (.node .nil
     k!"readCompositionSwComponentTypeSwConnectors_PassThroughSwConnector" [k!"longName", k!"category", k!"desc", k!"introduction"]
     .nil)
    k!"readConsumedServiceInstanceConsumedEventGroups_ConsumedEventGroup" [k!"longName", k!"category", k!"desc", k!"introduction"]
    .nil)
   k!"readBswServiceDependencyServiceNeeds_DiagnosticOperationCycleNeeds" [k!"longName", k!"category", k!"desc", k!"introduction"]
   (.node .nil
    k!"readSignalServiceTranslationPropsSet_SignalServiceTranslationProps" [k!"longName", k!"category", k!"desc", k!"introduction"]
    .nil))
  k!"readBswServiceDependencyServiceNeeds_DiagnosticEnableConditionNeeds" [k!"longName", k!"category", k!"desc", k!"introduction"]
  (.node (.node .nil
    k!"readImplementationDataTypeSubElements_ImplementationDataTypeElement" [k!"longName", k!"category", k!"desc", k!"introduction"]
    .nil)
   k!"readBswServiceDependencyServiceNeeds_DiagnosticStorageConditionNeeds" [k!"longName", k!"category", k!"desc", k!"introduction"]
   (.node .nil
    k!"readBswServiceDependencyServiceNeeds_SecureOnBoardCommunicationNeeds" [k!"longName", k!"category", k!"desc", k!"introduction"]
    .nil))))

def overTable26 : Bst (List Key) :=
 (.node (.node (.node (.node (.node .nil
     k!"readBswServiceDependencyServiceNeeds_DtcStatusChangeNotificationNeeds" [k!"longName", k!"category", k!"desc", k!"introduction"]
     .nil)
    k!"readCouplingPortDetailsCouplingPortStructuralElements_CouplingPortFifo" [k!"longName", k!"category", k!"desc", k!"introduction"]
    .nil)
   k!"readBswServiceDependencyServiceNeeds_DiagnosticCommunicationManagerNeeds" [k!"longName", k!"category", k!"desc", k!"introduction", k!"serviceRequestCallbackType"]
   (.node .nil
    k!"readBswServiceDependencyServiceNeeds_FunctionInhibitionAvailabilityNeeds" [k!"longName", k!"category", k!"desc", k!"introduction"]
    .nil))
  k!"readBswInternalBehaviorInternalTriggeringPoints_BswInternalTriggeringPoint" [k!"longName", k!"category", k!"desc", k!"introduction"]
  (.node (.node .nil
    k!"readBswServiceDependencyServiceNeeds_DoIpRoutingActivationConfirmationNeeds" [k!"longName", k!"category", k!"desc", k!"introduction"]
    .nil)
   k!"readCouplingPortDetailsCouplingPortStructuralElements_CouplingPortScheduler" [k!"longName", k!"category", k!"desc", k!"introduction"]
   (.node .nil
    k!"readModeDeclarationMappingSetModeDeclarationMappings_ModeDeclarationMapping" [k!"longName", k!"category", k!"desc", k!"introduction"]
    .nil)))
 k!"readSignalServiceTranslationEventProps_SignalServiceTranslationElementProps" [k!"longName", k!"category", k!"desc", k!"introduction"]
 (.node (.node (.node .nil
    k!"readDataTransformationSetTransformationTechnologies_TransformationTechnology" [k!"longName", k!"category", k!"desc", k!"introduction"]
    .nil)
   k!"readBswServiceDependencyServiceNeeds_DoIpRoutingActivationAuthenticationNeeds" [k!"longName", k!"category", k!"desc", k!"introduction"]
   (.node .nil
    k!"readSecureCommunicationPropsSetFreshnessProps_SecureCommunicationFreshnessProps" [k!"longName", k!"category", k!"desc", k!"introduction"]
    .nil))
  k!"readSocketAddressApplicationEndpointProvidedServiceInstance_ProvidedServiceInstance" [k!"longName", k!"category", k!"desc", k!"introduction"]
  (.node (.node .nil
    k!"readSocketAddressApplicationEndpointConsumedServiceInstances_ConsumedServiceInstance" [k!"longName", k!"category", k!"desc", k!"introduction"]
    .nil)
   k!"readRunnableEntityAsynchronousServerCallResultPoint_AsynchronousServerCallResultPoint" [k!"longName", k!"category", k!"desc", k!"introduction", k!"asynchronousServerCallPointRef"]
   (.node .nil
    k!"readSecureCommunicationPropsSetAuthenticationProps_SecureCommunicationAuthenticationProps" [k!"longName", k!"category", k!"desc", k!"introduction"]
    .nil))))

def overTable27 : Bst (List Key) :=
 .node overTable25 k!"readSignalServiceTranslationProps_SignalServiceTranslationEventProps" [k!"longName", k!"category", k!"desc", k!"introduction"] overTable26

def overTable28 : Bst (List Key) :=
 .node overTable24 k!"readModeSwitchInterfaceModeGroup_ModeDeclarationGroupPrototype" [k!"longName", k!"category", k!"desc", k!"introduction"] overTable27

def overTable29 : Bst (List Key) :=
 .node overTable21 k!"readBswServiceDependencyServiceNeeds_DiagnosticEventNeeds" [k!"longName", k!"category", k!"desc", k!"introduction"] overTable28

def overTable30 : Bst (List Key) :=
 .node overTable14 k!"readARPackageElements_ApplicationRecordDataType" [k!"longName", k!"category", k!"desc", k!"introduction", k!"swDataDefProps"] overTable29

/-- the attributes a reader method assigns even if there is nothing to read, for the objects created by name -/
def overTable : Bst (List Key) := overTable30

end Verif.Gen
