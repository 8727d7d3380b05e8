import Verif.Model.Listing
/-! Generated by `tools/gen_list.py` from `/repo/src/armodel/models/**`: every method that returns the members of an object
filtered by class or sorted by short name. Each row cites its source file and line. -/
namespace Verif.Gen
open Verif Verif.Model

/-- `src/armodel/models/M2/AUTOSARTemplates/BswModuleTemplate/BswBehavior/__init__.py` -/
def listRows00 : List ListRow := [
  ⟨k!"BswInternalBehavior", k!"getBswCalledEntities", k!"elements", [k!"BswCalledEntity"], false, 2926⟩,
  ⟨k!"BswInternalBehavior", k!"getBswSchedulableEntities", k!"elements", [k!"BswSchedulableEntity"], false, 2951⟩,
  ⟨k!"BswInternalBehavior", k!"getBswInterruptEntities", k!"elements", [k!"BswInterruptEntity"], false, 2976⟩,
  ⟨k!"BswInternalBehavior", k!"getBswModuleEntities", k!"elements", [k!"BswModuleEntity"], false, 2985⟩,
  ⟨k!"BswInternalBehavior", k!"getBswModeSwitchEvents", k!"elements", [k!"BswModeSwitchEvent"], false, 3010⟩,
  ⟨k!"BswInternalBehavior", k!"getBswTimingEvents", k!"elements", [k!"BswTimingEvent"], false, 3035⟩,
  ⟨k!"BswInternalBehavior", k!"getBswDataReceivedEvents", k!"elements", [k!"BswDataReceivedEvent"], false, 3060⟩,
  ⟨k!"BswInternalBehavior", k!"getBswInternalTriggerOccurredEvents", k!"elements", [k!"BswInternalTriggerOccurredEvent"], false, 3085⟩,
  ⟨k!"BswInternalBehavior", k!"getBswOperationInvokedEvents", k!"elements", [k!"BswOperationInvokedEvent"], false, 3110⟩,
  ⟨k!"BswInternalBehavior", k!"getBswExternalTriggerOccurredEvents", k!"elements", [k!"BswExternalTriggerOccurredEvent"], false, 3135⟩,
  ⟨k!"BswInternalBehavior", k!"getBswBackgroundEvents", k!"elements", [k!"BswBackgroundEvent"], false, 3160⟩,
  ⟨k!"BswInternalBehavior", k!"getBswModeManagerErrorEvents", k!"elements", [k!"BswModeManagerErrorEvent"], false, 3185⟩,
  ⟨k!"BswInternalBehavior", k!"getBswModeSwitchedAckEvents", k!"elements", [k!"BswModeSwitchedAckEvent"], false, 3210⟩,
  ⟨k!"BswInternalBehavior", k!"getBswAsynchronousServerCallReturnsEvents", k!"elements", [k!"BswAsynchronousServerCallReturnsEvent"], false, 3235⟩,
  ⟨k!"BswInternalBehavior", k!"getBswEvents", k!"elements", [k!"BswEvent"], false, 3244⟩]

/-- `src/armodel/models/M2/AUTOSARTemplates/CommonStructure/FlatMap.py` -/
def listRows01 : List ListRow := [
  ⟨k!"FlatMap", k!"getInstances", k!"elements", [k!"FlatInstanceDescriptor"], true, 192⟩]

/-- `src/armodel/models/M2/AUTOSARTemplates/CommonStructure/Implementation.py` -/
def listRows02 : List ListRow := [
  ⟨k!"Implementation", k!"getCodeDescriptors", k!"elements", [k!"Code"], false, 718⟩]

/-- `src/armodel/models/M2/AUTOSARTemplates/CommonStructure/InternalBehavior.py` -/
def listRows03 : List ListRow := [
  ⟨k!"InternalBehavior", k!"getExclusiveAreas", k!"elements", [k!"ExclusiveArea"], false, 431⟩,
  ⟨k!"InternalBehavior", k!"getExclusiveAreaNestingOrders", k!"elements", [k!"ExclusiveAreaNestingOrder"], false, 457⟩]

/-- `src/armodel/models/M2/AUTOSARTemplates/CommonStructure/ModeDeclaration.py` -/
def listRows04 : List ListRow := [
  ⟨k!"ModeDeclarationGroup", k!"getModeDeclarations", k!"elements", [k!"ModeDeclaration"], true, 325⟩]

/-- `src/armodel/models/M2/AUTOSARTemplates/CommonStructure/ResourceConsumption/__init__.py` -/
def listRows05 : List ListRow := [
  ⟨k!"ResourceConsumption", k!"getExecutionTimes", k!"elements", [k!"AnalyzedExecutionTime", k!"MeasuredExecutionTime", k!"RoughEstimateOfExecutionTime", k!"SimulatedExecutionTime"], true, 364⟩,
  ⟨k!"ResourceConsumption", k!"getHeapUsages", k!"elements", [k!"HeapUsage"], true, 423⟩,
  ⟨k!"ResourceConsumption", k!"getMemorySections", k!"elements", [k!"MemorySection"], true, 448⟩,
  ⟨k!"ResourceConsumption", k!"getSectionNamePrefixes", k!"elements", [k!"SectionNamePrefix"], true, 485⟩,
  ⟨k!"ResourceConsumption", k!"getStackUsages", k!"elements", [k!"StackUsage"], true, 542⟩]

/-- `src/armodel/models/M2/AUTOSARTemplates/ECUCDescriptionTemplate.py` -/
def listRows06 : List ListRow := [
  ⟨k!"EcucModuleConfigurationValues", k!"getContainers", k!"elements", [k!"EcucContainerValue"], true, 397⟩]

/-- `src/armodel/models/M2/AUTOSARTemplates/GenericStructure/GeneralTemplateClasses/ARPackage.py` -/
def listRows07 : List ListRow := [
  ⟨k!"ARPackage", k!"getApplicationPrimitiveDataTypes", k!"elements", [k!"ApplicationPrimitiveDataType"], true, 1462⟩,
  ⟨k!"ARPackage", k!"getApplicationDataType", k!"elements", [k!"ApplicationDataType"], true, 1465⟩,
  ⟨k!"ARPackage", k!"getImplementationDataTypes", k!"elements", [k!"ImplementationDataType"], true, 1468⟩,
  ⟨k!"ARPackage", k!"getSwBaseTypes", k!"elements", [k!"SwBaseType"], false, 1471⟩,
  ⟨k!"ARPackage", k!"getSwComponentTypes", k!"elements", [k!"SwComponentType"], false, 1474⟩,
  ⟨k!"ARPackage", k!"getSensorActuatorSwComponentType", k!"elements", [k!"SensorActuatorSwComponentType"], false, 1477⟩,
  ⟨k!"ARPackage", k!"getAtomicSwComponentTypes", k!"elements", [k!"AtomicSwComponentType"], false, 1480⟩,
  ⟨k!"ARPackage", k!"getCompositionSwComponentTypes", k!"elements", [k!"CompositionSwComponentType"], false, 1483⟩,
  ⟨k!"ARPackage", k!"getComplexDeviceDriverSwComponentTypes", k!"elements", [k!"ComplexDeviceDriverSwComponentType"], true, 1486⟩,
  ⟨k!"ARPackage", k!"getSenderReceiverInterfaces", k!"elements", [k!"SenderReceiverInterface"], true, 1489⟩,
  ⟨k!"ARPackage", k!"getParameterInterfaces", k!"elements", [k!"ParameterInterface"], true, 1492⟩,
  ⟨k!"ARPackage", k!"getClientServerInterfaces", k!"elements", [k!"ClientServerInterface"], true, 1495⟩,
  ⟨k!"ARPackage", k!"getDataTypeMappingSets", k!"elements", [k!"DataTypeMappingSet"], true, 1498⟩,
  ⟨k!"ARPackage", k!"getCompuMethods", k!"elements", [k!"CompuMethod"], false, 1501⟩,
  ⟨k!"ARPackage", k!"getBswModuleDescriptions", k!"elements", [k!"BswModuleDescription"], false, 1504⟩,
  ⟨k!"ARPackage", k!"getBswModuleEntries", k!"elements", [k!"BswModuleEntry"], false, 1507⟩,
  ⟨k!"ARPackage", k!"getBswImplementations", k!"elements", [k!"BswImplementation"], false, 1510⟩,
  ⟨k!"ARPackage", k!"getSwcImplementations", k!"elements", [k!"SwcImplementation"], false, 1513⟩,
  ⟨k!"ARPackage", k!"getImplementations", k!"elements", [k!"Implementation"], false, 1516⟩,
  ⟨k!"ARPackage", k!"getSwcBswMappings", k!"elements", [k!"SwcBswMapping"], false, 1519⟩,
  ⟨k!"ARPackage", k!"getMcFunctions", k!"elements", [k!"McFunction"], false, 1522⟩,
  ⟨k!"ARPackage", k!"getMcGroups", k!"elements", [k!"McGroup"], false, 1531⟩,
  ⟨k!"ARPackage", k!"getConstantSpecifications", k!"elements", [k!"ConstantSpecification"], false, 1540⟩,
  ⟨k!"ARPackage", k!"getDataConstrs", k!"elements", [k!"DataConstr"], false, 1543⟩,
  ⟨k!"ARPackage", k!"getUnits", k!"elements", [k!"Unit"], false, 1546⟩,
  ⟨k!"ARPackage", k!"getApplicationArrayDataTypes", k!"elements", [k!"ApplicationArrayDataType"], true, 1549⟩,
  ⟨k!"ARPackage", k!"getSwRecordLayouts", k!"elements", [k!"SwRecordLayout"], true, 1552⟩,
  ⟨k!"ARPackage", k!"getSwAddrMethods", k!"elements", [k!"SwAddrMethod"], true, 1555⟩,
  ⟨k!"ARPackage", k!"getTriggerInterfaces", k!"elements", [k!"TriggerInterface"], true, 1558⟩,
  ⟨k!"ARPackage", k!"getModeDeclarationGroups", k!"elements", [k!"ModeDeclarationGroup"], true, 1561⟩,
  ⟨k!"ARPackage", k!"getModeSwitchInterfaces", k!"elements", [k!"ModeSwitchInterface"], true, 1564⟩,
  ⟨k!"ARPackage", k!"getSwcTimings", k!"elements", [k!"SwcTiming"], true, 1567⟩,
  ⟨k!"ARPackage", k!"getLinClusters", k!"elements", [k!"LinCluster"], true, 1570⟩,
  ⟨k!"ARPackage", k!"getCanClusters", k!"elements", [k!"CanCluster"], true, 1573⟩,
  ⟨k!"ARPackage", k!"getLinUnconditionalFrames", k!"elements", [k!"LinUnconditionalFrame"], true, 1576⟩,
  ⟨k!"ARPackage", k!"getNmPdus", k!"elements", [k!"NmPdu"], true, 1579⟩,
  ⟨k!"ARPackage", k!"getNPdus", k!"elements", [k!"NPdu"], true, 1582⟩,
  ⟨k!"ARPackage", k!"getDcmIPdus", k!"elements", [k!"DcmIPdu"], true, 1585⟩,
  ⟨k!"ARPackage", k!"getSecuredIPdus", k!"elements", [k!"SecuredIPdu"], true, 1588⟩,
  ⟨k!"ARPackage", k!"getNmConfigs", k!"elements", [k!"NmConfig"], true, 1591⟩,
  ⟨k!"ARPackage", k!"getCanTpConfigs", k!"elements", [k!"CanTpConfig"], true, 1594⟩,
  ⟨k!"ARPackage", k!"getCanFrames", k!"elements", [k!"CanFrame"], true, 1597⟩,
  ⟨k!"ARPackage", k!"getEcuInstances", k!"elements", [k!"EcuInstance"], true, 1600⟩,
  ⟨k!"ARPackage", k!"getGateways", k!"elements", [k!"Gateway"], true, 1603⟩,
  ⟨k!"ARPackage", k!"getISignals", k!"elements", [k!"ISignal"], true, 1606⟩,
  ⟨k!"ARPackage", k!"getEcucValueCollections", k!"elements", [k!"EcucValueCollection"], true, 1609⟩,
  ⟨k!"ARPackage", k!"getEcucModuleConfigurationValues", k!"elements", [k!"EcucModuleConfigurationValues"], true, 1612⟩,
  ⟨k!"ARPackage", k!"getEcucModuleDefs", k!"elements", [k!"EcucModuleDef"], true, 1615⟩,
  ⟨k!"ARPackage", k!"getEcucDefinitionCollections", k!"elements", [k!"EcucDefinitionCollection"], true, 1618⟩,
  ⟨k!"ARPackage", k!"getSwSystemConsts", k!"elements", [k!"SwSystemconst"], true, 1621⟩,
  ⟨k!"ARPackage", k!"getSwSystemconstantValueSets", k!"elements", [k!"SwSystemconstantValueSet"], true, 1624⟩,
  ⟨k!"ARPackage", k!"getPredefinedVariants", k!"elements", [k!"PredefinedVariant"], true, 1627⟩,
  ⟨k!"ARPackage", k!"getPostBuildVariantCriterions", k!"elements", [k!"PostBuildVariantCriterion"], true, 1635⟩,
  ⟨k!"ARPackage", k!"getEcucPhysicalDimensions", k!"elements", [k!"PhysicalDimension"], true, 1643⟩,
  ⟨k!"ARPackage", k!"getISignalGroups", k!"elements", [k!"ISignalGroup"], true, 1646⟩,
  ⟨k!"ARPackage", k!"getSystemSignals", k!"elements", [k!"SystemSignal"], true, 1649⟩,
  ⟨k!"ARPackage", k!"getSystemSignalGroups", k!"elements", [k!"SystemSignalGroup"], true, 1652⟩,
  ⟨k!"ARPackage", k!"getISignalIPdus", k!"elements", [k!"ISignalIPdu"], true, 1655⟩,
  ⟨k!"ARPackage", k!"getSystems", k!"elements", [k!"System"], true, 1658⟩,
  ⟨k!"ARPackage", k!"getHwElements", k!"elements", [k!"HwElement"], true, 1661⟩,
  ⟨k!"ARPackage", k!"getHwCategories", k!"elements", [k!"HwCategory"], true, 1664⟩,
  ⟨k!"ARPackage", k!"getFlexrayFrames", k!"elements", [k!"FlexrayFrame"], true, 1667⟩,
  ⟨k!"ARPackage", k!"getDataTransformationSets", k!"elements", [k!"DataTransformationSet"], true, 1670⟩,
  ⟨k!"ARPackage", k!"getCollections", k!"elements", [k!"Collection"], true, 1673⟩,
  ⟨k!"ARPackage", k!"getKeywordSets", k!"elements", [k!"KeywordSet"], true, 1676⟩,
  ⟨k!"ARPackage", k!"getPortPrototypeBlueprints", k!"elements", [k!"PortPrototypeBlueprint"], true, 1679⟩,
  ⟨k!"ARPackage", k!"getModeDeclarationMappingSets", k!"elements", [k!"ModeDeclarationMappingSet"], true, 1682⟩]

/-- `src/armodel/models/M2/AUTOSARTemplates/SWComponentTemplate/Components/__init__.py` -/
def listRows08 : List ListRow := [
  ⟨k!"AbstractProvidedPortPrototype", k!"getNonqueuedSenderComSpecs", k!"providedComSpecs", [k!"NonqueuedSenderComSpec"], false, 338⟩,
  ⟨k!"AbstractRequiredPortPrototype", k!"getClientComSpecs", k!"requiredComSpecs", [k!"ClientComSpec"], false, 385⟩,
  ⟨k!"AbstractRequiredPortPrototype", k!"getNonqueuedReceiverComSpecs", k!"requiredComSpecs", [k!"NonqueuedReceiverComSpec"], false, 388⟩]

/-- `src/armodel/models/M2/AUTOSARTemplates/SWComponentTemplate/Composition/__init__.py` -/
def listRows09 : List ListRow := [
  ⟨k!"CompositionSwComponentType", k!"getAssemblySwConnectors", k!"connectors", [k!"AssemblySwConnector"], true, 472⟩,
  ⟨k!"CompositionSwComponentType", k!"getDelegationSwConnectors", k!"connectors", [k!"DelegationSwConnector"], true, 481⟩,
  ⟨k!"CompositionSwComponentType", k!"getPassThroughSwConnectors", k!"connectors", [k!"PassThroughSwConnector"], true, 490⟩]

/-- `src/armodel/models/M2/AUTOSARTemplates/SWComponentTemplate/EndToEndProtection.py` -/
def listRows10 : List ListRow := [
  ⟨k!"EndToEndProtectionSet", k!"getEndToEndProtections", k!"elements", [k!"EndToEndProtection"], true, 528⟩]

/-- `src/armodel/models/M2/AUTOSARTemplates/SWComponentTemplate/PortInterface/__init__.py` -/
def listRows11 : List ListRow := [
  ⟨k!"NvDataInterface", k!"getNvDatas", k!"elements", [k!"VariableDataPrototype"], false, 163⟩,
  ⟨k!"SenderReceiverInterface", k!"getDataElements", k!"elements", [k!"VariableDataPrototype"], false, 331⟩,
  ⟨k!"SenderReceiverInterface", k!"getInvalidationPolicys", k!"invalidationPolicies", [k!"InvalidationPolicy"], false, 342⟩]

/-- `src/armodel/models/M2/AUTOSARTemplates/SWComponentTemplate/SwComponentType.py` -/
def listRows12 : List ListRow := [
  ⟨k!"SwComponentType", k!"getPPortPrototypes", k!"ports", [k!"PPortPrototype"], true, 175⟩,
  ⟨k!"SwComponentType", k!"getRPortPrototypes", k!"ports", [k!"RPortPrototype"], true, 186⟩,
  ⟨k!"SwComponentType", k!"getPRPortPrototypes", k!"ports", [k!"PRPortPrototype"], true, 197⟩,
  ⟨k!"SwComponentType", k!"getPortPrototypes", k!"ports", [k!"PortPrototype"], true, 208⟩]

/-- `src/armodel/models/M2/AUTOSARTemplates/SWComponentTemplate/SwcInternalBehavior/ServiceMapping.py` -/
def listRows13 : List ListRow := [
  ⟨k!"SwcServiceDependency", k!"getNvBlockNeeds", k!"elements", [k!"NvBlockNeeds"], true, 668⟩,
  ⟨k!"SwcServiceDependency", k!"getDiagnosticCommunicationManagerNeeds", k!"elements", [k!"DiagnosticCommunicationManagerNeeds"], true, 677⟩,
  ⟨k!"SwcServiceDependency", k!"getDiagnosticRoutineNeeds", k!"elements", [k!"DiagnosticRoutineNeeds"], true, 687⟩,
  ⟨k!"SwcServiceDependency", k!"getDiagnosticValueNeeds", k!"elements", [k!"DiagnosticValueNeeds"], true, 697⟩,
  ⟨k!"SwcServiceDependency", k!"getDiagnosticEventNeeds", k!"elements", [k!"DiagnosticEventNeeds"], true, 706⟩,
  ⟨k!"SwcServiceDependency", k!"getDiagnosticEventInfoNeeds", k!"elements", [k!"DiagnosticEventInfoNeeds"], true, 715⟩,
  ⟨k!"SwcServiceDependency", k!"getCryptoServiceNeeds", k!"elements", [k!"CryptoServiceNeeds"], true, 725⟩,
  ⟨k!"SwcServiceDependency", k!"getEcuStateMgrUserNeeds", k!"elements", [k!"EcuStateMgrUserNeeds"], true, 734⟩,
  ⟨k!"SwcServiceDependency", k!"getDtcStatusChangeNotificationNeeds", k!"elements", [k!"DtcStatusChangeNotificationNeeds"], true, 743⟩,
  ⟨k!"SwcServiceDependency", k!"getDiagnosticIoControlNeeds", k!"elements", [k!"DiagnosticIoControlNeeds"], true, 753⟩,
  ⟨k!"SwcServiceDependency", k!"getDltUserNeeds", k!"elements", [k!"DltUserNeeds"], true, 763⟩,
  ⟨k!"SwcServiceDependency", k!"getComMgrUserNeeds", k!"elements", [k!"ComMgrUserNeeds"], true, 772⟩,
  ⟨k!"SwcServiceDependency", k!"getErrorTracerNeeds", k!"elements", [k!"ErrorTracerNeeds"], true, 781⟩,
  ⟨k!"SwcServiceDependency", k!"getObdInfoServiceNeeds", k!"elements", [k!"ObdInfoServiceNeeds"], true, 790⟩,
  ⟨k!"SwcServiceDependency", k!"getObdMonitorServiceNeeds", k!"elements", [k!"ObdMonitorServiceNeeds"], true, 799⟩,
  ⟨k!"SwcServiceDependency", k!"getObdPidServiceNeeds", k!"elements", [k!"ObdPidServiceNeeds"], true, 808⟩,
  ⟨k!"SwcServiceDependency", k!"getObdControlServiceNeeds", k!"elements", [k!"ObdControlServiceNeeds"], true, 817⟩,
  ⟨k!"SwcServiceDependency", k!"getServiceNeeds", k!"elements", [k!"ServiceNeeds"], true, 826⟩]

/-- `src/armodel/models/M2/AUTOSARTemplates/SWComponentTemplate/SwcInternalBehavior/__init__.py` -/
def listRows14 : List ListRow := [
  ⟨k!"RunnableEntity", k!"getDataReadAccesses", k!"dataReadAccesses", [], true, 297⟩,
  ⟨k!"RunnableEntity", k!"getDataWriteAccesses", k!"dataWriteAccesses", [], true, 320⟩,
  ⟨k!"RunnableEntity", k!"getDataReceivePointByArguments", k!"dataReceivePointByArguments", [], true, 344⟩,
  ⟨k!"RunnableEntity", k!"getDataReceivePointByValues", k!"dataReceivePointByValues", [], true, 369⟩,
  ⟨k!"RunnableEntity", k!"getParameterAccesses", k!"elements", [k!"ParameterAccess"], true, 449⟩,
  ⟨k!"RunnableEntity", k!"getSynchronousServerCallPoint", k!"elements", [k!"SynchronousServerCallPoint"], true, 523⟩,
  ⟨k!"RunnableEntity", k!"getAsynchronousServerCallPoint", k!"elements", [k!"AsynchronousServerCallPoint"], true, 533⟩,
  ⟨k!"RunnableEntity", k!"getAsynchronousServerCallResultPoints", k!"elements", [k!"AsynchronousServerCallResultPoint"], true, 543⟩,
  ⟨k!"RunnableEntity", k!"getServerCallPoints", k!"elements", [k!"ServerCallPoint"], true, 553⟩,
  ⟨k!"RunnableEntity", k!"getInternalTriggeringPoints", k!"elements", [k!"InternalTriggeringPoint"], false, 578⟩,
  ⟨k!"RunnableEntity", k!"getModeSwitchPoints", k!"elements", [k!"ModeSwitchPoint"], true, 637⟩,
  ⟨k!"SwcInternalBehavior", k!"getRteEvents", k!"elements", [k!"RTEEvent"], true, 1127⟩,
  ⟨k!"SwcInternalBehavior", k!"getOperationInvokedEvents", k!"elements", [k!"OperationInvokedEvent"], true, 1131⟩,
  ⟨k!"SwcInternalBehavior", k!"getInitEvents", k!"elements", [k!"InitEvent"], true, 1135⟩,
  ⟨k!"SwcInternalBehavior", k!"getTimingEvents", k!"elements", [k!"TimingEvent"], true, 1139⟩,
  ⟨k!"SwcInternalBehavior", k!"getDataReceivedEvents", k!"elements", [k!"DataReceivedEvent"], true, 1143⟩,
  ⟨k!"SwcInternalBehavior", k!"getSwcModeSwitchEvents", k!"elements", [k!"SwcModeSwitchEvent"], true, 1147⟩,
  ⟨k!"SwcInternalBehavior", k!"getInternalTriggerOccurredEvents", k!"elements", [k!"InternalTriggerOccurredEvent"], true, 1151⟩,
  ⟨k!"SwcInternalBehavior", k!"getModeSwitchedAckEvents", k!"elements", [k!"ModeSwitchedAckEvent"], true, 1155⟩,
  ⟨k!"SwcInternalBehavior", k!"getBackgroundEvents", k!"elements", [k!"BackgroundEvent"], true, 1159⟩,
  ⟨k!"SwcInternalBehavior", k!"getDataSendCompletedEvents", k!"elements", [k!"DataSendCompletedEvent"], true, 1163⟩,
  ⟨k!"SwcInternalBehavior", k!"getSwcServiceDependencies", k!"elements", [k!"SwcServiceDependency"], true, 1167⟩,
  ⟨k!"SwcInternalBehavior", k!"getVariableDataPrototypes", k!"elements", [k!"VariableDataPrototype"], true, 1175⟩,
  ⟨k!"SwcInternalBehavior", k!"getRunnableEntities", k!"elements", [k!"RunnableEntity"], true, 1186⟩]

/-- `src/armodel/models/M2/AUTOSARTemplates/SystemTemplate/Fibex/FibexCore/CoreCommunication.py` -/
def listRows15 : List ListRow := [
  ⟨k!"Frame", k!"getPduToFrameMappings", k!"elements", [k!"PduToFrameMapping"], true, 130⟩]

/-- `src/armodel/models/M2/AUTOSARTemplates/SystemTemplate/Fibex/FibexCore/CoreTopology.py` -/
def listRows16 : List ListRow := [
  ⟨k!"PhysicalChannel", k!"getFrameTriggerings", k!"elements", [k!"FrameTriggering"], true, 149⟩,
  ⟨k!"PhysicalChannel", k!"getISignalTriggerings", k!"elements", [k!"ISignalTriggering"], true, 173⟩,
  ⟨k!"PhysicalChannel", k!"getPduTriggerings", k!"elements", [k!"PduTriggering"], true, 189⟩,
  ⟨k!"CommunicationCluster", k!"getPhysicalChannels", k!"physicalChannel", [], true, 445⟩,
  ⟨k!"CommunicationCluster", k!"getCanPhysicalChannels", k!"physicalChannel", [k!"CanPhysicalChannel"], true, 451⟩,
  ⟨k!"CommunicationCluster", k!"getLinPhysicalChannels", k!"physicalChannel", [k!"LinPhysicalChannel"], true, 457⟩,
  ⟨k!"CommunicationCluster", k!"getEthernetPhysicalChannels", k!"physicalChannel", [k!"EthernetPhysicalChannel"], true, 463⟩,
  ⟨k!"CommunicationConnector", k!"getEcuCommPortInstances", k!"elements", [k!"CommConnectorPort"], true, 1037⟩]

/-- `src/armodel/models/M2/AUTOSARTemplates/SystemTemplate/Fibex/FibexCore/EcuInstance.py` -/
def listRows17 : List ListRow := [
  ⟨k!"EcuInstance", k!"getCommControllers", k!"elements", [k!"CommunicationController"], true, 173⟩,
  ⟨k!"EcuInstance", k!"getConnectors", k!"elements", [k!"CommunicationConnector"], true, 200⟩]

/-- `src/armodel/models/M2/AUTOSARTemplates/SystemTemplate/NetworkManagement.py` -/
def listRows18 : List ListRow := [
  ⟨k!"NmConfig", k!"getCanNmClusters", k!"elements", [k!"CanNmCluster"], true, 997⟩,
  ⟨k!"NmConfig", k!"getUdpNmClusters", k!"elements", [k!"UdpNmCluster"], true, 1000⟩,
  ⟨k!"NmConfig", k!"getNmClusters", k!"elements", [k!"NmCluster"], true, 1003⟩,
  ⟨k!"NmCluster", k!"getCanNmNodes", k!"elements", [k!"CanNmNode"], true, 1115⟩,
  ⟨k!"NmCluster", k!"getUdpNmNodes", k!"elements", [k!"UdpNmNode"], true, 1118⟩,
  ⟨k!"NmCluster", k!"getJ1939NmNodes", k!"elements", [k!"J1939NmNode"], true, 1121⟩,
  ⟨k!"NmCluster", k!"getNmNodes", k!"elements", [k!"NmNode"], true, 1124⟩]

/-- `src/armodel/models/M2/AUTOSARTemplates/SystemTemplate/__init__.py` -/
def listRows19 : List ListRow := [
  ⟨k!"SystemMapping", k!"getSwcToEcuMappings", k!"elements", [k!"SwcToEcuMapping"], true, 370⟩,
  ⟨k!"System", k!"getMappings", k!"elements", [k!"SystemMapping"], true, 594⟩,
  ⟨k!"System", k!"getSystemMappings", k!"elements", [k!"SystemMapping"], true, 597⟩]

/-- all listing methods -/
def listTable : List ListRow :=
  listRows00 ++ listRows01 ++ listRows02 ++ listRows03 ++ listRows04 ++ listRows05 ++ listRows06 ++ listRows07 ++ listRows08 ++ listRows09 ++ listRows10 ++ listRows11 ++ listRows12 ++ listRows13 ++ listRows14 ++ listRows15 ++ listRows16 ++ listRows17 ++ listRows18 ++ listRows19

end Verif.Gen
