import Verif.Model.Bst
import Verif.Gen.Write8
-- generated by tools/gen_codec.py; do not edit
namespace Verif.Gen
open Verif Verif.Model

def writeTable00 : Bst (WB) :=
 (.node (.node (.node (.node (.node .nil
     k!"setSdg_Sdg" W.setSdg_Sdg
     .nil)
    k!"setTt_TT_Tt" W.setTt_TT_Tt
    .nil)
   k!"setNote_Note" W.setNote_Note
   (.node (.node .nil
     k!"writeCode_Code" W.writeCode_Code
     .nil)
    k!"writeNPdu_NPdu" W.writeNPdu_NPdu
    .nil))
  k!"writeUnit_Unit" W.writeUnit_Unit
  (.node (.node (.node .nil
     k!"setSdg_Sdg_L717" W.setSdg_Sdg_L717
     .nil)
    k!"setSdg_Sdg_L731" W.setSdg_Sdg_L731
    .nil)
   k!"writeNmEcu_NmEcu" W.writeNmEcu_NmEcu
   (.node (.node .nil
     k!"writeNmPdu_NmPdu" W.writeNmPdu_NmPdu
     .nil)
    k!"writeTcpTp_TcpTp" W.writeTcpTp_TcpTp
    .nil)))
 k!"writeUdpTp_UdpTp" W.writeUdpTp_UdpTp
 (.node (.node (.node (.node .nil
     k!"setDefItem_DefItem" W.setDefItem_DefItem
     .nil)
    k!"setDefList_DefList" W.setDefList_DefList
    .nil)
   k!"writeHwType_HwType" W.writeHwType_HwType
   (.node (.node .nil
     k!"writeLinker_Linker" W.writeLinker_Linker
     .nil)
    k!"writeSystem_System" W.writeSystem_System
    .nil))
  k!"writeTopic1_Topic1" W.writeTopic1_Topic1
  (.node (.node (.node .nil
     k!"writeDcmIPdu_DcmIPdu" W.writeDcmIPdu_DcmIPdu
     .nil)
    k!"writeFlatMap_FlatMap" W.writeFlatMap_FlatMap
    .nil)
   k!"writeGateway_Gateway" W.writeGateway_Gateway
   (.node .nil
    k!"writeISignal_ISignal" W.writeISignal_ISignal
    .nil))))

def writeTable01 : Bst (WB) :=
 (.node (.node (.node (.node (.node .nil
     k!"writeMcGroup_McGroup" W.writeMcGroup_McGroup
     .nil)
    k!"writeTrigger_Trigger" W.writeTrigger_Trigger
    .nil)
   k!"setAdminData_AdminData" W.setAdminData_AdminData
   (.node (.node .nil
     k!"setLLongName_LLongName" W.setLLongName_LLongName
     .nil)
    k!"setLVerbatim_LVerbatim" W.setLVerbatim_LVerbatim
    .nil))
  k!"writeCanFrame_CanFrame" W.writeCanFrame_CanFrame
  (.node (.node (.node .nil
     k!"writeCanTpEcu_CanTpEcu" W.writeCanTpEcu_CanTpEcu
     .nil)
    k!"writeCompiler_Compiler" W.writeCompiler_Compiler
    .nil)
   k!"writeIPduPort_IPduPort" W.writeIPduPort_IPduPort
   (.node .nil
    k!"writeNmConfig_NmConfig" W.writeNmConfig_NmConfig
    .nil)))
 k!"writeUdpNmEcu_UdpNmEcu" W.writeUdpNmEcu_UdpNmEcu
 (.node (.node (.node (.node .nil
     k!"setLPlainText_LPlainText" W.setLPlainText_LPlainText
     .nil)
    k!"setMsrQueryP2_MsrQueryP2" W.setMsrQueryP2_MsrQueryP2
    .nil)
   k!"writeARPackage_ARPackage" W.writeARPackage_ARPackage
   (.node (.node .nil
     k!"writeCanNmNode_CanNmNode" W.writeCanNmNode_CanNmNode
     .nil)
    k!"writeCanTpNode_CanTpNode" W.writeCanTpNode_CanTpNode
    .nil))
  k!"writeFramePort_FramePort" W.writeFramePort_FramePort
  (.node (.node (.node .nil
     k!"writeGenericTp_GenericTp" W.writeGenericTp_GenericTp
     .nil)
    k!"writeHwElement_HwElement" W.writeHwElement_HwElement
    .nil)
   k!"writeInitEvent_InitEvent" W.writeInitEvent_InitEvent
   (.node .nil
    k!"writeLinMaster_LinMaster" W.writeLinMaster_LinMaster
    .nil))))

def writeTable02 : Bst (WB) :=
 .node writeTable00 k!"writeKeyword_Keyword" W.writeKeyword_Keyword writeTable01

def writeTable03 : Bst (WB) :=
 (.node (.node (.node (.node (.node .nil
     k!"writePortGroup_PortGroup" W.writePortGroup_PortGroup
     .nil)
    k!"writeSdgCaption_Sdg_L743" W.writeSdgCaption_Sdg_L743
    .nil)
   k!"writeSwcTiming_SwcTiming" W.writeSwcTiming_SwcTiming
   (.node (.node .nil
     k!"writeTpAddress_TpAddress" W.writeTpAddress_TpAddress
     .nil)
    k!"writeUdpNmNode_UdpNmNode" W.writeUdpNmNode_UdpNmNode
    .nil))
  k!"setCompuScales_CompuScales" W.setCompuScales_CompuScales
  (.node (.node (.node .nil
     k!"setGraphic_GRAPHIC_Graphic" W.setGraphic_GRAPHIC_Graphic
     .nil)
    k!"setLabeledItem_LabeledItem" W.setLabeledItem_LabeledItem
    .nil)
   k!"setLabeledList_LabeledList" W.setLabeledList_LabeledList
   (.node .nil
    k!"setListElement_LIST_ARList" W.setListElement_LIST_ARList
    .nil)))
 k!"setMsrQueryArg_MsrQueryArg" W.setMsrQueryArg_MsrQueryArg
 (.node (.node (.node (.node .nil
     k!"setPhysConstrs_PhysConstrs" W.setPhysConstrs_PhysConstrs
     .nil)
    k!"setSwTextProps_SwTextProps" W.setSwTextProps_SwTextProps
    .nil)
   k!"writeCanCluster_CanCluster" W.writeCanCluster_CanCluster
   (.node (.node .nil
     k!"writeCollection_Collection" W.writeCollection_Collection
     .nil)
    k!"writeDataConstr_DataConstr" W.writeDataConstr_DataConstr
    .nil))
  k!"writeEcuMapping_ECUMapping" W.writeEcuMapping_ECUMapping
  (.node (.node (.node .nil
     k!"writeGateway_Gateway_L8186" W.writeGateway_Gateway_L8186
     .nil)
    k!"writeGateway_Gateway_L8199" W.writeGateway_Gateway_L8199
    .nil)
   k!"writeHwCategory_HwCategory" W.writeHwCategory_HwCategory
   (.node .nil
    k!"writeHwPinGroup_HwPinGroup" W.writeHwPinGroup_HwPinGroup
    .nil))))

def writeTable04 : Bst (WB) :=
 (.node (.node (.node (.node (.node .nil
     k!"writeLinCluster_LinCluster" W.writeLinCluster_LinCluster
     .nil)
    k!"writeMcFunction_McFunction" W.writeMcFunction_McFunction
    .nil)
   k!"writeMcGroup_McGroup_L9569" W.writeMcGroup_McGroup_L9569
   (.node (.node .nil
     k!"writeMcGroup_McGroup_L9572" W.writeMcGroup_McGroup_L9572
     .nil)
    k!"writeMsrQueryP1_MsrQueryP1" W.writeMsrQueryP1_MsrQueryP1
    .nil))
  k!"writeStaticPart_StaticPart" W.writeStaticPart_StaticPart
  (.node (.node (.node .nil
     k!"writeSwBaseType_SwBaseType" W.writeSwBaseType_SwBaseType
     .nil)
    k!"setIndexEntry_IE_IndexEntry" W.setIndexEntry_IE_IndexEntry
    .nil)
   k!"setIndentSample_IndentSample" W.setIndentSample_IndentSample
   (.node .nil
    k!"setRuntimeError_RuntimeError" W.setRuntimeError_RuntimeError
    .nil)))
 k!"setSwCalprmAxis_SwCalprmAxis" W.setSwCalprmAxis_SwCalprmAxis
 (.node (.node (.node (.node .nil
     k!"setTpPort_TCP_TP_PORT_TpPort" W.setTpPort_TCP_TP_PORT_TpPort
     .nil)
    k!"setTpPort_UDP_TP_PORT_TpPort" W.setTpPort_UDP_TP_PORT_TpPort
    .nil)
   k!"writeBswMgrNeeds_BswMgrNeeds" W.writeBswMgrNeeds_BswMgrNeeds
   (.node (.node .nil
     k!"writeCanTpConfig_CanTpConfig" W.writeCanTpConfig_CanTpConfig
     .nil)
    k!"writeChapter_Chapter_CHAPTER" W.writeChapter_Chapter_CHAPTER
    .nil))
  k!"writeCompuMethod_CompuMethod" W.writeCompuMethod_CompuMethod
  (.node (.node (.node .nil
     k!"writeDocRevision_DocRevision" W.writeDocRevision_DocRevision
     .nil)
    k!"writeDynamicPart_DynamicPart" W.writeDynamicPart_DynamicPart
    .nil)
   k!"writeEcuInstance_EcuInstance" W.writeEcuInstance_EcuInstance
   (.node .nil
    k!"writeISignalIPdu_ISignalIPdu" W.writeISignalIPdu_ISignalIPdu
    .nil))))

def writeTable05 : Bst (WB) :=
 .node writeTable03 k!"writeKeywordSet_KeywordSet" W.writeKeywordSet_KeywordSet writeTable04

def writeTable06 : Bst (WB) :=
 .node writeTable02 k!"writeLinTpNode_LinTpNode" W.writeLinTpNode_LinTpNode writeTable05

def writeTable07 : Bst (WB) :=
 (.node (.node (.node (.node (.node .nil
     k!"writeIdsMgrNeeds_IdsMgrNeeds" W.writeIdsMgrNeeds_IdsMgrNeeds
     .nil)
    k!"writeJ1939NmNode_J1939NmNode" W.writeJ1939NmNode_J1939NmNode
    .nil)
   k!"writeLinTpConfig_LinTpConfig" W.writeLinTpConfig_LinTpConfig
   (.node (.node .nil
     k!"writeSecuredIPdu_SecuredIPdu" W.writeSecuredIPdu_SecuredIPdu
     .nil)
    k!"writeSwValueCont_SwValueCont" W.writeSwValueCont_SwValueCont
    .nil))
  k!"writeSymbolProps_SymbolProps" W.writeSymbolProps_SymbolProps
  (.node (.node (.node .nil
     k!"writeTimingEvent_TimingEvent" W.writeTimingEvent_TimingEvent
     .nil)
    k!"setEmphasisText_E_EmphasisText" W.setEmphasisText_E_EmphasisText
    .nil)
   k!"setMlFormula_FORMULA_MlFormula" W.setMlFormula_FORMULA_MlFormula
   (.node .nil
    k!"setMsrQueryProps_MsrQueryProps" W.setMsrQueryProps_MsrQueryProps
    .nil)))
 k!"setStructuredReq_StructuredReq" W.setStructuredReq_StructuredReq
 (.node (.node (.node (.node .nil
     k!"setSwAxisGeneric_SwAxisGeneric" W.setSwAxisGeneric_SwAxisGeneric
     .nil)
    k!"setSwAxisGrouped_SwAxisGrouped" W.setSwAxisGrouped_SwAxisGrouped
    .nil)
   k!"writeARPackage_ARPackage_L9513" W.writeARPackage_ARPackage_L9513
   (.node (.node .nil
     k!"writeCanNmCluster_CanNmCluster" W.writeCanNmCluster_CanNmCluster
     .nil)
    k!"writeCanTpAddress_CanTpAddress" W.writeCanTpAddress_CanTpAddress
    .nil))
  k!"writeCanTpChannel_CanTpChannel" W.writeCanTpChannel_CanTpChannel
  (.node (.node (.node .nil
     k!"writeChapterModel_ChapterModel" W.writeChapterModel_ChapterModel
     .nil)
    k!"writeCouplingPort_CouplingPort" W.writeCouplingPort_CouplingPort
    .nil)
   k!"writeDltUserNeeds_DltUserNeeds" W.writeDltUserNeeds_DltUserNeeds
   (.node .nil
    k!"writeDoIpTpConfig_DoIpTpConfig" W.writeDoIpTpConfig_DoIpTpConfig
    .nil))))

def writeTable08 : Bst (WB) :=
 (.node (.node (.node (.node (.node .nil
     k!"writeEventHandler_EventHandler" W.writeEventHandler_EventHandler
     .nil)
    k!"writeFlexrayFrame_FlexrayFrame" W.writeFlexrayFrame_FlexrayFrame
    .nil)
   k!"writeISignalGroup_ISignalGroup" W.writeISignalGroup_ISignalGroup
   (.node (.node .nil
     k!"writeModification_Modification" W.writeModification_Modification
     .nil)
    k!"writeNvBlockNeeds_NvBlockNeeds" W.writeNvBlockNeeds_NvBlockNeeds
    .nil))
  k!"writeSwAddrMethod_SwAddrMethod" W.writeSwAddrMethod_SwAddrMethod
  (.node (.node (.node .nil
     k!"writeSystemSignal_SystemSignal" W.writeSystemSignal_SystemSignal
     .nil)
    k!"writeTopicContent_TopicContent" W.writeTopicContent_TopicContent
    .nil)
   k!"writeUdpNmCluster_UdpNmCluster" W.writeUdpNmCluster_UdpNmCluster
   (.node .nil
    k!"setDataFilter_FILTER_DataFilter" W.setDataFilter_FILTER_DataFilter
    .nil)))
 k!"writeISignalProps_ISignal_L8229" W.writeISignalProps_ISignal_L8229
 (.node (.node (.node (.node .nil
     k!"setTransientFault_TransientFault" W.setTransientFault_TransientFault
     .nil)
    k!"writeChapter_Chapter_SW_CARB_DOC" W.writeChapter_Chapter_SW_CARB_DOC
    .nil)
   k!"writeClientComSpec_ClientComSpec" W.writeClientComSpec_ClientComSpec
   (.node (.node .nil
     k!"writeDocumentation_Documentation" W.writeDocumentation_Documentation
     .nil)
    k!"writeEcucModuleDef_EcucModuleDef" W.writeEcucModuleDef_EcucModuleDef
    .nil))
  k!"writeLifeCycleInfo_LifeCycleInfo" W.writeLifeCycleInfo_LifeCycleInfo
  (.node (.node (.node .nil
     k!"writeMcFunction_McFunction_L9525" W.writeMcFunction_McFunction_L9525
     .nil)
    k!"writeMcFunction_McFunction_L9528" W.writeMcFunction_McFunction_L9528
    .nil)
   k!"writeMcFunction_McFunction_L9531" W.writeMcFunction_McFunction_L9531
   (.node .nil
    k!"writeMcFunction_McFunction_L9534" W.writeMcFunction_McFunction_L9534
    .nil))))

def writeTable09 : Bst (WB) :=
 .node writeTable07 k!"writeEcucQuery_EcucQuery_L7115" W.writeEcucQuery_EcucQuery_L7115 writeTable08

def writeTable10 : Bst (WB) :=
 (.node (.node (.node (.node (.node .nil
     k!"writeMcSupportData_McSupportData" W.writeMcSupportData_McSupportData
     .nil)
    k!"writePduTriggering_PduTriggering" W.writePduTriggering_PduTriggering
    .nil)
   k!"writeRuleArguments_RuleArguments" W.writeRuleArguments_RuleArguments
   (.node (.node .nil
     k!"writeServerComSpec_ServerComSpec" W.writeServerComSpec_ServerComSpec
     .nil)
    k!"writeSocketAddress_SocketAddress" W.writeSocketAddress_SocketAddress
    .nil))
  k!"writeSwSystemconst_SwSystemconst" W.writeSwSystemconst_SwSystemconst
  (.node (.node (.node .nil
     k!"writeSwcBswMapping_SwcBswMapping" W.writeSwcBswMapping_SwcBswMapping
     .nil)
    k!"writeSystemMapping_SystemMapping" W.writeSystemMapping_SystemMapping
    .nil)
   k!"writeChapter_Chapter_SW_TEST_DESC" W.writeChapter_Chapter_SW_TEST_DESC
   (.node .nil
    k!"writeIdentifiable_ARPackage_L2019" W.writeIdentifiable_ARPackage_L2019
    .nil)))
 k!"setCaption_FORMULA_CAPTION_Caption" W.setCaption_FORMULA_CAPTION_Caption
 (.node (.node (.node (.node .nil
     k!"setInternalConstrs_InternalConstrs" W.setInternalConstrs_InternalConstrs
     .nil)
    k!"setModeDeclaration_ModeDeclaration" W.setModeDeclaration_ModeDeclaration
    .nil)
   k!"setSoftwareContext_SoftwareContext" W.setSoftwareContext_SoftwareContext
   (.node (.node .nil
     k!"setSwcToEcuMapping_SwcToEcuMapping" W.setSwcToEcuMapping_SwcToEcuMapping
     .nil)
    k!"writeBswModuleEntry_BswModuleEntry" W.writeBswModuleEntry_BswModuleEntry
    .nil))
  k!"writeBswTimingEvent_BswTimingEvent" W.writeBswTimingEvent_BswTimingEvent
  (.node (.node (.node .nil
     k!"writeChapterContent_ChapterContent" W.writeChapterContent_ChapterContent
     .nil)
    k!"writeFlexrayCluster_FlexrayCluster" W.writeFlexrayCluster_FlexrayCluster
    .nil)
   k!"writeHwAttributeDef_HwAttributeDef" W.writeHwAttributeDef_HwAttributeDef
   (.node .nil
    k!"writeHwPinConnector_HwPinConnector" W.writeHwPinConnector_HwPinConnector
    .nil))))

def writeTable11 : Bst (WB) :=
 (.node (.node (.node (.node (.node .nil
     k!"writeMsrQueryTopic1_MsrQueryTopic1" W.writeMsrQueryTopic1_MsrQueryTopic1
     .nil)
    k!"writePPortPrototype_PPortPrototype" W.writePPortPrototype_PPortPrototype
    .nil)
   k!"writeRPortPrototype_RPortPrototype" W.writeRPortPrototype_RPortPrototype
   (.node (.node .nil
     k!"writeRptSupportData_RptSupportData" W.writeRptSupportData_RptSupportData
     .nil)
    k!"writeRunnableEntity_RunnableEntity" W.writeRunnableEntity_RunnableEntity
    .nil))
  k!"writeSwRecordLayout_SwRecordLayout" W.writeSwRecordLayout_SwRecordLayout
  (.node (.node (.node .nil
     k!"writeUserDefinedPdu_UserDefinedPdu" W.writeUserDefinedPdu_UserDefinedPdu
     .nil)
    k!"writeVariableAccess_VariableAccess" W.writeVariableAccess_VariableAccess
    .nil)
   k!"writeVariationPoint_VariationPoint" W.writeVariationPoint_VariationPoint
   (.node .nil
    k!"writeVlanMembership_VlanMembership" W.writeVlanMembership_VlanMembership
    .nil)))
 k!"setSwValues_SW_VALUES_PHYS_SwValues" W.setSwValues_SW_VALUES_PHYS_SwValues
 (.node (.node (.node (.node .nil
     k!"setValueList_SW_ARRAYSIZE_ValueList" W.setValueList_SW_ARRAYSIZE_ValueList
     .nil)
    k!"writeChapter_Chapter_SW_FEATURE_DEF" W.writeChapter_Chapter_SW_FEATURE_DEF
    .nil)
   k!"writePduToFrameMappings_Frame_L5750" W.writePduToFrameMappings_Frame_L5750
   (.node (.node .nil
     k!"setDataFilter_DATA_FILTER_DataFilter" W.setDataFilter_DATA_FILTER_DataFilter
     .nil)
    k!"setDevelopmentError_DevelopmentError" W.setDevelopmentError_DevelopmentError
    .nil))
  k!"setMlFormula_FORMULA_MlFormula_L1893" W.setMlFormula_FORMULA_MlFormula_L1893
  (.node (.node (.node .nil
     k!"setSocketConnection_SocketConnection" W.setSocketConnection_SocketConnection
     .nil)
    k!"setSwAxisIndividual_SwAxisIndividual" W.setSwAxisIndividual_SwAxisIndividual
    .nil)
   k!"setSwDataDependency_SwDataDependency" W.setSwDataDependency_SwDataDependency
   (.node .nil
    k!"setSwHostVariable_SwVariableRefProxy" W.setSwHostVariable_SwVariableRefProxy
    .nil))))

def writeTable12 : Bst (WB) :=
 .node writeTable10 k!"writeISignalIPdu_ISignalIPdu_L9135" W.writeISignalIPdu_ISignalIPdu_L9135 writeTable11

def writeTable13 : Bst (WB) :=
 .node writeTable09 k!"writeMcFunction_McFunction_L9537" W.writeMcFunction_McFunction_L9537 writeTable12

def writeTable14 : Bst (WB) :=
 .node writeTable06 k!"writeISignalPort_ISignalPort" W.writeISignalPort_ISignalPort writeTable13

def writeTable15 : Bst (WB) :=
 (.node (.node (.node (.node (.node .nil
     k!"setTraceableText_TRACE_TraceableText" W.setTraceableText_TRACE_TraceableText
     .nil)
    k!"writeBackgroundEvent_BackgroundEvent" W.writeBackgroundEvent_BackgroundEvent
    .nil)
   k!"writeBswCalledEntity_BswCalledEntity" W.writeBswCalledEntity_BswCalledEntity
   (.node (.node .nil
     k!"writeCanTpConnection_CanTpConnection" W.writeCanTpConnection_CanTpConnection
     .nil)
    k!"writeChapter_Chapter_SW_FEATURE_DESC" W.writeChapter_Chapter_SW_FEATURE_DESC
    .nil))
  k!"writeComMgrUserNeeds_ComMgrUserNeeds" W.writeComMgrUserNeeds_ComMgrUserNeeds
  (.node (.node (.node .nil
     k!"writeCycleRepetition_CycleRepetition" W.writeCycleRepetition_CycleRepetition
     .nil)
    k!"writeEthernetCluster_EthernetCluster" W.writeEthernetCluster_EthernetCluster
    .nil)
   k!"writeLinTpConnection_LinTpConnection" W.writeLinTpConnection_LinTpConnection
   (.node (.node .nil
     k!"writeModeAccessPoint_ModeAccessPoint" W.writeModeAccessPoint_ModeAccessPoint
     .nil)
    k!"writeModeSwitchPoint_ModeSwitchPoint" W.writeModeSwitchPoint_ModeSwitchPoint
    .nil)))
 k!"writeMsrQueryChapter_MsrQueryChapter" W.writeMsrQueryChapter_MsrQueryChapter
 (.node (.node (.node (.node .nil
     k!"writeMultiplexedIPdu_MultiplexedIPdu" W.writeMultiplexedIPdu_MultiplexedIPdu
     .nil)
    k!"writeNetworkEndPoint_NetworkEndpoint" W.writeNetworkEndPoint_NetworkEndpoint
    .nil)
   k!"writeNvDataInterface_NvDataInterface" W.writeNvDataInterface_NvDataInterface
   (.node (.node .nil
     k!"writePRPortPrototype_PRPortPrototype" W.writePRPortPrototype_PRPortPrototype
     .nil)
    k!"writeParameterAccess_ParameterAccess" W.writeParameterAccess_ParameterAccess
    .nil))
  k!"writeRptComponent_RptComponent_L4455" W.writeRptComponent_RptComponent_L4455
  (.node (.node (.node .nil
     k!"writeRptComponent_RptComponent_L4457" W.writeRptComponent_RptComponent_L4457
     .nil)
    k!"writeRptComponent_RptComponent_L4462" W.writeRptComponent_RptComponent_L4462
    .nil)
   k!"writeSegmentPosition_SegmentPosition" W.writeSegmentPosition_SegmentPosition
   (.node .nil
    k!"writeTpConnection_TpConnection_L6067" W.writeTpConnection_TpConnection_L6067
    .nil))))

def writeTable16 : Bst (WB) :=
 (.node (.node (.node (.node (.node .nil
     k!"setCompu_COMPU_INTERNAL_TO_PHYS_Compu" W.setCompu_COMPU_INTERNAL_TO_PHYS_Compu
     .nil)
    k!"setCompu_COMPU_PHYS_TO_INTERNAL_Compu" W.setCompu_COMPU_PHYS_TO_INTERNAL_Compu
    .nil)
   k!"setDoIpEntity_DO_IP_ENTITY_DoIpEntity" W.setDoIpEntity_DO_IP_ENTITY_DoIpEntity
   (.node (.node .nil
     k!"writeDataConstrRules_DataConstr_L2519" W.writeDataConstrRules_DataConstr_L2519
     .nil)
    k!"setConstantReference_ConstantReference" W.setConstantReference_ConstantReference
    .nil))
  k!"setIpv6Configuration_Ipv6Configuration" W.setIpv6Configuration_Ipv6Configuration
  (.node (.node (.node .nil
     k!"setShortNameFragment_ShortNameFragment" W.setShortNameFragment_ShortNameFragment
     .nil)
    k!"setSubElementMapping_SubElementMapping" W.setSubElementMapping_SubElementMapping
    .nil)
   k!"writeApplicationError_ApplicationError" W.writeApplicationError_ApplicationError
   (.node .nil
    k!"writeCompuScale_COMPU_SCALE_CompuScale" W.writeCompuScale_COMPU_SCALE_CompuScale
    .nil)))
 k!"writeConsistencyNeeds_ConsistencyNeeds" W.writeConsistencyNeeds_ConsistencyNeeds
 (.node (.node (.node (.node .nil
     k!"writeCouplingPortFifo_CouplingPortFifo" W.writeCouplingPortFifo_CouplingPortFifo
     .nil)
    k!"writeDoIpLogicAddress_DoIpLogicAddress" W.writeDoIpLogicAddress_DoIpLogicAddress
    .nil)
   k!"writeDoIpTpConnection_DoIpTpConnection" W.writeDoIpTpConnection_DoIpTpConnection
   (.node (.node .nil
     k!"writeDocumentation_Documentation_L1598" W.writeDocumentation_Documentation_L1598
     .nil)
    k!"writeDocumentation_Documentation_L1602" W.writeDocumentation_Documentation_L1602
    .nil))
  k!"writeEcucReferenceDef_EcucReferenceDef" W.writeEcucReferenceDef_EcucReferenceDef
  (.node (.node (.node .nil
     k!"writeErrorTracerNeeds_ErrorTracerNeeds" W.writeErrorTracerNeeds_ErrorTracerNeeds
     .nil)
    k!"writeHwAttributeValue_HwAttributeValue" W.writeHwAttributeValue_HwAttributeValue
    .nil)
   k!"writeISignalIPduGroup_ISignalIPduGroup" W.writeISignalIPduGroup_ISignalIPduGroup
   (.node .nil
    k!"writeLifeCycleInfoSet_LifeCycleInfoSet" W.writeLifeCycleInfoSet_LifeCycleInfoSet
    .nil))))

def writeTable17 : Bst (WB) :=
 .node writeTable15 k!"writeUserDefinedIPdu_UserDefinedIPdu" W.writeUserDefinedIPdu_UserDefinedIPdu writeTable16

def writeTable18 : Bst (WB) :=
 (.node (.node (.node (.node (.node .nil
     k!"writeMcSupportData_McSupportData_L4280" W.writeMcSupportData_McSupportData_L4280
     .nil)
    k!"writeMcSupportData_McSupportData_L4285" W.writeMcSupportData_McSupportData_L4285
    .nil)
   k!"writeNvProvideComSpec_NvProvideComSpec" W.writeNvProvideComSpec_NvProvideComSpec
   (.node (.node .nil
     k!"writeNvRequireComSpec_NvRequireComSpec" W.writeNvRequireComSpec_NvRequireComSpec
     .nil)
    k!"writeSoAdRoutingGroup_SoAdRoutingGroup" W.writeSoAdRoutingGroup_SoAdRoutingGroup
    .nil))
  k!"writeSwcToImplMapping_SwcToImplMapping" W.writeSwcToImplMapping_SwcToImplMapping
  (.node (.node (.node .nil
     k!"writeTriggerInterface_TriggerInterface" W.writeTriggerInterface_TriggerInterface
     .nil)
    k!"setMlFormula_INFORMAL_FORMULA_MlFormula" W.setMlFormula_INFORMAL_FORMULA_MlFormula
    .nil)
   k!"setScaleConstr_SCALE_CONSTR_ScaleConstr" W.setScaleConstr_SCALE_CONSTR_ScaleConstr
   (.node .nil
    k!"writeSoAdConfig_SO_AD_CONFIG_SoAdConfig" W.writeSoAdConfig_SO_AD_CONFIG_SoAdConfig
    .nil)))
 k!"setBswInterruptEntity_BswInterruptEntity" W.setBswInterruptEntity_BswInterruptEntity
 (.node (.node (.node (.node .nil
     k!"setEcucReferenceValue_EcucReferenceValue" W.setEcucReferenceValue_EcucReferenceValue
     .nil)
    k!"setLOverviewParagraph_LOverviewParagraph" W.setLOverviewParagraph_LOverviewParagraph
    .nil)
   k!"setMeasuredStackUsage_MeasuredStackUsage" W.setMeasuredStackUsage_MeasuredStackUsage
   (.node (.node .nil
     k!"setSwGenericAxisParam_SwGenericAxisParam" W.setSwGenericAxisParam_SwGenericAxisParam
     .nil)
    k!"setSwServiceArg_RETURN_TYPE_SwServiceArg" W.setSwServiceArg_RETURN_TYPE_SwServiceArg
    .nil))
  k!"writeBswImplementation_BswImplementation" W.writeBswImplementation_BswImplementation
  (.node (.node (.node .nil
     k!"writeBswVariableAccess_BswVariableAccess" W.writeBswVariableAccess_BswVariableAccess
     .nil)
    k!"writeCompuScaleContents_CompuScale_L2265" W.writeCompuScaleContents_CompuScale_L2265
    .nil)
   k!"writeDataReceivedEvent_DataReceivedEvent" W.writeDataReceivedEvent_DataReceivedEvent
   (.node .nil
    k!"writeEcucContainValue_EcucContainerValue" W.writeEcucContainValue_EcucContainerValue
    .nil))))

def writeTable19 : Bst (WB) :=
 (.node (.node (.node (.node (.node .nil
     k!"writeGeneralPurposePdu_GeneralPurposePdu" W.writeGeneralPurposePdu_GeneralPurposePdu
     .nil)
    k!"writeISignalTriggering_ISignalTriggering" W.writeISignalTriggering_ISignalTriggering
    .nil)
   k!"writeMacMulticastGroup_MacMulticastGroup" W.writeMacMulticastGroup_MacMulticastGroup
   (.node (.node .nil
     k!"writeMcDataInstance_McDataInstance_L4345" W.writeMcDataInstance_McDataInstance_L4345
     .nil)
    k!"writeMcDataInstance_McDataInstance_L4349" W.writeMcDataInstance_McDataInstance_L4349
    .nil))
  k!"writeMcDataInstance_McDataInstance_L4356" W.writeMcDataInstance_McDataInstance_L4356
  (.node (.node (.node .nil
     k!"writeMcDataInstance_McDataInstance_L4358" W.writeMcDataInstance_McDataInstance_L4358
     .nil)
    k!"writeMcDataInstance_McDataInstance_L4361" W.writeMcDataInstance_McDataInstance_L4361
    .nil)
   k!"writeMeasuredHeapUsage_MeasuredHeapUsage" W.writeMeasuredHeapUsage_MeasuredHeapUsage
   (.node .nil
    k!"writeNumericalOrText_VTF_NumericalOrText" W.writeNumericalOrText_VTF_NumericalOrText
    .nil)))
 k!"writeNvBlockDescriptor_NvBlockDescriptor" W.writeNvBlockDescriptor_NvBlockDescriptor
 (.node (.node (.node (.node .nil
     k!"writePhysicalDimension_PhysicalDimension" W.writePhysicalDimension_PhysicalDimension
     .nil)
    k!"writePredefinedVariant_PredefinedVariant" W.writePredefinedVariant_PredefinedVariant
    .nil)
   k!"writeRptSupportData_RptSupportData_L4470" W.writeRptSupportData_RptSupportData_L4470
   (.node (.node .nil
     k!"writeRptSupportData_RptSupportData_L4475" W.writeRptSupportData_RptSupportData_L4475
     .nil)
    k!"writeRptSupportData_RptSupportData_L4480" W.writeRptSupportData_RptSupportData_L4480
    .nil))
  k!"writeRuleBasedAxisCont_RuleBasedAxisCont" W.writeRuleBasedAxisCont_RuleBasedAxisCont
  (.node (.node (.node .nil
     k!"writeSwcImplementation_SwcImplementation" W.writeSwcImplementation_SwcImplementation
     .nil)
    k!"writeSystemSignalGroup_SystemSignalGroup" W.writeSystemSignalGroup_SystemSignalGroup
    .nil)
   k!"writeChapter_Chapter_SW_CALIBRATION_NOTES" W.writeChapter_Chapter_SW_CALIBRATION_NOTES
   (.node .nil
    k!"writeChapter_Chapter_SW_DIAGNOSTICS_NOTES" W.writeChapter_Chapter_SW_DIAGNOSTICS_NOTES
    .nil))))

def writeTable20 : Bst (WB) :=
 .node writeTable18 k!"writeEcucFloatParamDef_EcucFloatParamDef" W.writeEcucFloatParamDef_EcucFloatParamDef writeTable19

def writeTable21 : Bst (WB) :=
 .node writeTable17 k!"writeLinScheduleTable_LinScheduleTable" W.writeLinScheduleTable_LinScheduleTable writeTable20

def writeTable22 : Bst (WB) :=
 (.node (.node (.node (.node (.node .nil
     k!"setBswModeSenderPolicy_BswModeSenderPolicy" W.setBswModeSenderPolicy_BswModeSenderPolicy
     .nil)
    k!"setCyclicTiming_CYCLIC_TIMING_CyclicTiming" W.setCyclicTiming_CYCLIC_TIMING_CyclicTiming
    .nil)
   k!"setResourceConsumption_ResourceConsumption" W.setResourceConsumption_ResourceConsumption
   (.node (.node .nil
     k!"setSwBitRepresentation_SwBitRepresentation" W.setSwBitRepresentation_SwBitRepresentation
     .nil)
    k!"setSwDataDependency_SwDataDependency_L2169" W.setSwDataDependency_SwDataDependency_L2169
    .nil))
  k!"setSwDataDependency_SwDataDependency_L2175" W.setSwDataDependency_SwDataDependency_L2175
  (.node (.node (.node .nil
     k!"setTimeRangeType_TIME_OFFSET_TimeRangeType" W.setTimeRangeType_TIME_OFFSET_TimeRangeType
     .nil)
    k!"setTimeRangeType_TIME_PERIOD_TimeRangeType" W.setTimeRangeType_TIME_PERIOD_TimeRangeType
    .nil)
   k!"setWorstCaseStackUsage_WorstCaseStackUsage" W.setWorstCaseStackUsage_WorstCaseStackUsage
   (.node .nil
    k!"writeBlueprintGenerator_BlueprintGenerator" W.writeBlueprintGenerator_BlueprintGenerator
    .nil)))
 k!"writeBswBackgroundEvent_BswBackgroundEvent" W.writeBswBackgroundEvent_BswBackgroundEvent
 (.node (.node (.node (.node .nil
     k!"writeBswModeSwitchEvent_BswModeSwitchEvent" W.writeBswModeSwitchEvent_BswModeSwitchEvent
     .nil)
    k!"writeCanFrameTriggering_CanFrameTriggering" W.writeCanFrameTriggering_CanFrameTriggering
    .nil)
   k!"writeCanPhysicalChannel_CanPhysicalChannel" W.writeCanPhysicalChannel_CanPhysicalChannel
   (.node (.node .nil
     k!"writeConditionByFormula_ConditionByFormula" W.writeConditionByFormula_ConditionByFormula
     .nil)
    k!"writeConsumedEventGroup_ConsumedEventGroup" W.writeConsumedEventGroup_ConsumedEventGroup
    .nil))
  k!"writeContainedIPduProps_ContainedIPduProps" W.writeContainedIPduProps_ContainedIPduProps
  (.node (.node (.node .nil
     k!"writeCryptoServiceNeeds_CryptoServiceNeeds" W.writeCryptoServiceNeeds_CryptoServiceNeeds
     .nil)
    k!"writeDataPrototypeGroup_DataPrototypeGroup" W.writeDataPrototypeGroup_DataPrototypeGroup
    .nil)
   k!"writeDataTransformation_DataTransformation" W.writeDataTransformation_DataTransformation
   (.node .nil
    k!"writeDataTypeMappingSet_DataTypeMappingSet" W.writeDataTypeMappingSet_DataTypeMappingSet
    .nil))))

def writeTable23 : Bst (WB) :=
 (.node (.node (.node (.node (.node .nil
     k!"writeEcucStringParamDef_EcucStringParamDef" W.writeEcucStringParamDef_EcucStringParamDef
     .nil)
    k!"writeEndToEndProtection_EndToEndProtection" W.writeEndToEndProtection_EndToEndProtection
    .nil)
   k!"writeExclusiveAreas_InternalBehavior_L2671" W.writeExclusiveAreas_InternalBehavior_L2671
   (.node (.node .nil
     k!"writeGeneralPurposeIPdu_GeneralPurposeIPdu" W.writeGeneralPurposeIPdu_GeneralPurposeIPdu
     .nil)
    k!"writeHwElementConnector_HwElementConnector" W.writeHwElementConnector_HwElementConnector
    .nil))
  k!"writeLinFrameTriggering_LinFrameTriggering" W.writeLinFrameTriggering_LinFrameTriggering
  (.node (.node (.node .nil
     k!"writeLinPhysicalChannel_LinPhysicalChannel" W.writeLinPhysicalChannel_LinPhysicalChannel
     .nil)
    k!"writeModePortAnnotation_ModePortAnnotation" W.writeModePortAnnotation_ModePortAnnotation
    .nil)
   k!"writeNvBlockDataMapping_NvBlockDataMapping" W.writeNvBlockDataMapping_NvBlockDataMapping
   (.node .nil
    k!"writeObdPidServiceNeeds_ObdPidServiceNeeds" W.writeObdPidServiceNeeds_ObdPidServiceNeeds
    .nil)))
 k!"writeParameterInterface_ParameterInterface" W.writeParameterInterface_ParameterInterface
 (.node (.node (.node (.node .nil
     k!"writeReceiverComSpec_ReceiverComSpec_L1160" W.writeReceiverComSpec_ReceiverComSpec_L1160
     .nil)
    k!"writeRuleBasedValueCont_RuleBasedValueCont" W.writeRuleBasedValueCont_RuleBasedValueCont
    .nil)
   k!"writeSwSystemconstValue_SwSystemconstValue" W.writeSwSystemconstValue_SwSystemconstValue
   (.node (.node .nil
     k!"writeSwcModeSwitchEvent_SwcModeSwitchEvent" W.writeSwcModeSwitchEvent_SwcModeSwitchEvent
     .nil)
    k!"writeWorstCaseHeapUsage_WorstCaseHeapUsage" W.writeWorstCaseHeapUsage_WorstCaseHeapUsage
    .nil))
  k!"setAnyInstanceRef_VALUE_IREF_AnyInstanceRef" W.setAnyInstanceRef_VALUE_IREF_AnyInstanceRef
  (.node (.node (.node .nil
     k!"setSwServiceArg_SW_SERVICE_ARG_SwServiceArg" W.setSwServiceArg_SW_SERVICE_ARG_SwServiceArg
     .nil)
    k!"setTargetIPduRef_TARGET_I_PDU_TargetIPduRef" W.setTargetIPduRef_TARGET_I_PDU_TargetIPduRef
    .nil)
   k!"writeISignalToPduMappings_ISignalIPdu_L9078" W.writeISignalToPduMappings_ISignalIPdu_L9078
   (.node .nil
    k!"setCompuConst_COMPU_DEFAULT_VALUE_CompuConst" W.setCompuConst_COMPU_DEFAULT_VALUE_CompuConst
    .nil))))

def writeTable24 : Bst (WB) :=
 .node writeTable22 k!"writeDataTypeMaps_DataTypeMappingSet_L5622" W.writeDataTypeMaps_DataTypeMappingSet_L5622 writeTable23

def writeTable25 : Bst (WB) :=
 (.node (.node (.node (.node (.node .nil
     k!"setMultiLongName_LABEL_MultilanguageLongName" W.setMultiLongName_LABEL_MultilanguageLongName
     .nil)
    k!"setSubElementMapping_SubElementMapping_L8093" W.setSubElementMapping_SubElementMapping_L8093
    .nil)
   k!"writeAssemblySwConnector_AssemblySwConnector" W.writeAssemblySwConnector_AssemblySwConnector
   (.node (.node .nil
     k!"writeBswInternalBehavior_BswInternalBehavior" W.writeBswInternalBehavior_BswInternalBehavior
     .nil)
    k!"writeEcuInstanceConnectors_EcuInstance_L7778" W.writeEcuInstanceConnectors_EcuInstance_L7778
    .nil))
  k!"writeEcuInstanceConnectors_EcuInstance_L7781" W.writeEcuInstanceConnectors_EcuInstance_L7781
  (.node (.node (.node .nil
     k!"writeEcuInstanceConnectors_EcuInstance_L7784" W.writeEcuInstanceConnectors_EcuInstance_L7784
     .nil)
    k!"writeEcuInstanceConnectors_EcuInstance_L7787" W.writeEcuInstanceConnectors_EcuInstance_L7787
    .nil)
   k!"writeEcucBooleanParamDef_EcucBooleanParamDef" W.writeEcucBooleanParamDef_EcucBooleanParamDef
   (.node .nil
    k!"writeEcucContainerDef_EcucContainerDef_L7230" W.writeEcucContainerDef_EcucContainerDef_L7230
    .nil)))
 k!"writeEcucFunctionNameDef_EcucFunctionNameDef" W.writeEcucFunctionNameDef_EcucFunctionNameDef
 (.node (.node (.node (.node .nil
     k!"writeEcucIntegerParamDef_EcucIntegerParamDef" W.writeEcucIntegerParamDef_EcucIntegerParamDef
     .nil)
    k!"writeHwPinGroupConnector_HwPinGroupConnector" W.writeHwPinGroupConnector_HwPinGroupConnector
    .nil)
   k!"writeModeSwitchInterface_ModeSwitchInterface" W.writeModeSwitchInterface_ModeSwitchInterface
   (.node (.node .nil
     k!"writeObdInfoServiceNeeds_ObdInfoServiceNeeds" W.writeObdInfoServiceNeeds_ObdInfoServiceNeeds
     .nil)
    k!"writeQueuedSenderComSpec_QueuedSenderComSpec" W.writeQueuedSenderComSpec_QueuedSenderComSpec
    .nil))
  k!"writeRootSwCompositionPrototype_System_L8007" W.writeRootSwCompositionPrototype_System_L8007
  (.node (.node (.node .nil
     k!"writeRunnableEntityGroup_RunnableEntityGroup" W.writeRunnableEntityGroup_RunnableEntityGroup
     .nil)
    k!"writeSwcInternalBehavior_SwcInternalBehavior" W.writeSwcInternalBehavior_SwcInternalBehavior
    .nil)
   k!"writeVariationPointProxy_VariationPointProxy" W.writeVariationPointProxy_VariationPointProxy
   (.node .nil
    k!"setAnyInstanceRef_FEATURE_IREF_AnyInstanceRef" W.setAnyInstanceRef_FEATURE_IREF_AnyInstanceRef
    .nil))))

def writeTable26 : Bst (WB) :=
 (.node (.node (.node (.node (.node .nil
     k!"writeLParagraphs_MultiLanguageParagraph_L1805" W.writeLParagraphs_MultiLanguageParagraph_L1805
     .nil)
    k!"writeMemorySections_ResourceConsumption_L4051" W.writeMemorySections_ResourceConsumption_L4051
    .nil)
   k!"setEcucTextualParamValue_EcucTextualParamValue" W.setEcucTextualParamValue_EcucTextualParamValue
   (.node (.node .nil
     k!"setHardwareConfiguration_HardwareConfiguration" W.setHardwareConfiguration_HardwareConfiguration
     .nil)
    k!"setPossibleErrorReaction_PossibleErrorReaction" W.setPossibleErrorReaction_PossibleErrorReaction
    .nil))
  k!"setSwcBswRunnableMapping_SwcBswRunnableMapping" W.setSwcBswRunnableMapping_SwcBswRunnableMapping
  (.node (.node (.node .nil
     k!"writeBswDataReceivedEvent_BswDataReceivedEvent" W.writeBswDataReceivedEvent_BswDataReceivedEvent
     .nil)
    k!"writeBswModuleDescription_BswModuleDescription" W.writeBswModuleDescription_BswModuleDescription
    .nil)
   k!"writeBswSchedulableEntity_BswSchedulableEntity" W.writeBswSchedulableEntity_BswSchedulableEntity
   (.node .nil
    k!"writeBswServiceDependency_BswServiceDependency" W.writeBswServiceDependency_BswServiceDependency
    .nil)))
 k!"writeBulkNvDataDescriptor_BulkNvDataDescriptor" W.writeBulkNvDataDescriptor_BulkNvDataDescriptor
 (.node (.node (.node (.node .nil
     k!"writeCanNmClusterCoupling_CanNmClusterCoupling" W.writeCanNmClusterCoupling_CanNmClusterCoupling
     .nil)
    k!"writeDependencyOnArtifact_DependencyOnArtifact" W.writeDependencyOnArtifact_DependencyOnArtifact
    .nil)
   k!"writeDiagnosticConnection_DiagnosticConnection" W.writeDiagnosticConnection_DiagnosticConnection
   (.node (.node .nil
     k!"writeDiagnosticEventNeeds_DiagnosticEventNeeds" W.writeDiagnosticEventNeeds_DiagnosticEventNeeds
     .nil)
    k!"writeDiagnosticValueNeeds_DiagnosticValueNeeds" W.writeDiagnosticValueNeeds_DiagnosticValueNeeds
    .nil))
  k!"writeDocumentationBlock_DEF_DocumentationBlock" W.writeDocumentationBlock_DEF_DocumentationBlock
  (.node (.node (.node .nil
     k!"writeEcuStateMgrUserNeeds_EcuStateMgrUserNeeds" W.writeEcuStateMgrUserNeeds_EcuStateMgrUserNeeds
     .nil)
    k!"writeExecutionTime_AnalyzedExecutionTime_L4097" W.writeExecutionTime_AnalyzedExecutionTime_L4097
    .nil)
   k!"writeGenericEthernetFrame_GenericEthernetFrame" W.writeGenericEthernetFrame_GenericEthernetFrame
   (.node .nil
    k!"writeIndicatorStatusNeeds_IndicatorStatusNeeds" W.writeIndicatorStatusNeeds_IndicatorStatusNeeds
    .nil))))

def writeTable27 : Bst (WB) :=
 .node writeTable25 k!"writeActivationReasons_ExecutableEntity_L4725" W.writeActivationReasons_ExecutableEntity_L4725 writeTable26

def writeTable28 : Bst (WB) :=
 .node writeTable24 k!"setDataPrototypeMapping_DataPrototypeMapping" W.setDataPrototypeMapping_DataPrototypeMapping writeTable27

def writeTable29 : Bst (WB) :=
 .node writeTable21 k!"writeChapter_Chapter_SW_MAINTENANCE_NOTES" W.writeChapter_Chapter_SW_MAINTENANCE_NOTES writeTable28

def writeTable30 : Bst (WB) :=
 .node writeTable14 k!"setTextTableMapping_TextTableMapping" W.setTextTableMapping_TextTableMapping writeTable29

def writeTable31 : Bst (WB) :=
 (.node (.node (.node (.node (.node .nil
     k!"writeModeInterfaceMapping_ModeInterfaceMapping" W.writeModeInterfaceMapping_ModeInterfaceMapping
     .nil)
    k!"writeModeSwitchedAckEvent_ModeSwitchedAckEvent" W.writeModeSwitchedAckEvent_ModeSwitchedAckEvent
    .nil)
   k!"writeNvBlockDescriptor_NvBlockDescriptor_L2773" W.writeNvBlockDescriptor_NvBlockDescriptor_L2773
   (.node (.node .nil
     k!"writeNvBlockDescriptor_NvBlockDescriptor_L2797" W.writeNvBlockDescriptor_NvBlockDescriptor_L2797
     .nil)
    k!"writeNvBlockDescriptor_NvBlockDescriptor_L2801" W.writeNvBlockDescriptor_NvBlockDescriptor_L2801
    .nil))
  k!"writeNvDataPortAnnotation_NvDataPortAnnotation" W.writeNvDataPortAnnotation_NvDataPortAnnotation
  (.node (.node (.node .nil
     k!"writeObdRatioServiceNeeds_ObdRatioServiceNeeds" W.writeObdRatioServiceNeeds_ObdRatioServiceNeeds
     .nil)
    k!"writeSwComponentPrototype_SwComponentPrototype" W.writeSwComponentPrototype_SwComponentPrototype
    .nil)
   k!"writeSwcServiceDependency_SwcServiceDependency" W.writeSwcServiceDependency_SwcServiceDependency
   (.node (.node .nil
     k!"writeSymbolicNameProps_ServiceDependency_L3354" W.writeSymbolicNameProps_ServiceDependency_L3354
     .nil)
    k!"writeUdpNmClusterCoupling_UdpNmClusterCoupling" W.writeUdpNmClusterCoupling_UdpNmClusterCoupling
    .nil)))
 k!"setLifeCyclePeriod_PERIOD_BEGIN_LifeCyclePeriod" W.setLifeCyclePeriod_PERIOD_BEGIN_LifeCyclePeriod
 (.node (.node (.node (.node .nil
     k!"setSwDataDefProps_PHYSICAL_PROPS_SwDataDefProps" W.setSwDataDefProps_PHYSICAL_PROPS_SwDataDefProps
     .nil)
    k!"writeDocumentationBlock_ITEM_DocumentationBlock" W.writeDocumentationBlock_ITEM_DocumentationBlock
    .nil)
   k!"writeDocumentationBlock_TEXT_DocumentationBlock" W.writeDocumentationBlock_TEXT_DocumentationBlock
   (.node (.node .nil
     k!"setFlatInstanceDescriptor_FlatInstanceDescriptor" W.setFlatInstanceDescriptor_FlatInstanceDescriptor
     .nil)
    k!"setMultiLongName_LONG_NAME_MultilanguageLongName" W.setMultiLongName_LONG_NAME_MultilanguageLongName
    .nil))
  k!"setResourceConsumption_ResourceConsumption_L4184" W.setResourceConsumption_ResourceConsumption_L4184
  (.node (.node (.node .nil
     k!"setResourceConsumption_ResourceConsumption_L4192" W.setResourceConsumption_ResourceConsumption_L4192
     .nil)
    k!"setResourceConsumption_ResourceConsumption_L4198" W.setResourceConsumption_ResourceConsumption_L4198
    .nil)
   k!"setRunnableEntityArgument_RunnableEntityArgument" W.setRunnableEntityArgument_RunnableEntityArgument
   (.node .nil
    k!"setTimeRangeType_REPETITION_PERIOD_TimeRangeType" W.setTimeRangeType_REPETITION_PERIOD_TimeRangeType
    .nil))))

def writeTable32 : Bst (WB) :=
 (.node (.node (.node (.node (.node .nil
     k!"writeArgumentDataPrototype_ArgumentDataPrototype" W.writeArgumentDataPrototype_ArgumentDataPrototype
     .nil)
    k!"writeClientServerInterface_ClientServerInterface" W.writeClientServerInterface_ClientServerInterface
    .nil)
   k!"writeClientServerOperation_ClientServerOperation" W.writeClientServerOperation_ClientServerOperation
   (.node (.node .nil
     k!"writeConstantSpecification_ConstantSpecification" W.writeConstantSpecification_ConstantSpecification
     .nil)
    k!"writeCouplingPortScheduler_CouplingPortScheduler" W.writeCouplingPortScheduler_CouplingPortScheduler
    .nil))
  k!"writeDataTransformationSet_DataTransformationSet" W.writeDataTransformationSet_DataTransformationSet
  (.node (.node (.node .nil
     k!"writeDelegationSwConnector_DelegationSwConnector" W.writeDelegationSwConnector_DelegationSwConnector
     .nil)
    k!"writeEcucDestinationUriDef_EcucDestinationUriDef" W.writeEcucDestinationUriDef_EcucDestinationUriDef
    .nil)
   k!"writeEndToEndProtectionSet_EndToEndProtectionSet" W.writeEndToEndProtectionSet_EndToEndProtectionSet
   (.node .nil
    k!"writeHwAttributeLiteralDef_HwAttributeLiteralDef" W.writeHwAttributeLiteralDef_HwAttributeLiteralDef
    .nil)))
 k!"writeLinUnconditionalFrame_LinUnconditionalFrame" W.writeLinUnconditionalFrame_LinUnconditionalFrame
 (.node (.node (.node (.node .nil
     k!"writeMeasuredExecutionTime_MeasuredExecutionTime" W.writeMeasuredExecutionTime_MeasuredExecutionTime
     .nil)
    k!"writeOperationInvokedEvent_OperationInvokedEvent" W.writeOperationInvokedEvent_OperationInvokedEvent
    .nil)
   k!"writeQueuedReceiverComSpec_QueuedReceiverComSpec" W.writeQueuedReceiverComSpec_QueuedReceiverComSpec
   (.node (.node .nil
     k!"writeSupervisedEntityNeeds_SupervisedEntityNeeds" W.writeSupervisedEntityNeeds_SupervisedEntityNeeds
     .nil)
    k!"writeTriggerPortAnnotation_TriggerPortAnnotation" W.writeTriggerPortAnnotation_TriggerPortAnnotation
    .nil))
  k!"writeVariableDataPrototype_VariableDataPrototype" W.writeVariableDataPrototype_VariableDataPrototype
  (.node (.node (.node .nil
     k!"setSdClientConfig_SD_CLIENT_CONFIG_SdClientConfig" W.setSdClientConfig_SD_CLIENT_CONFIG_SdClientConfig
     .nil)
    k!"setSdServerConfig_SD_SERVER_CONFIG_SdServerConfig" W.setSdServerConfig_SD_SERVER_CONFIG_SdServerConfig
    .nil)
   k!"writeDocumentationBlock_REMARK_DocumentationBlock" W.writeDocumentationBlock_REMARK_DocumentationBlock
   (.node .nil
    k!"writeModeRequestTypeMaps_DataTypeMappingSet_L5632" W.writeModeRequestTypeMaps_DataTypeMappingSet_L5632
    .nil))))

def writeTable33 : Bst (WB) :=
 .node writeTable31 k!"writeAnalyzedExecutionTime_AnalyzedExecutionTime" W.writeAnalyzedExecutionTime_AnalyzedExecutionTime writeTable32

def writeTable34 : Bst (WB) :=
 (.node (.node (.node (.node (.node .nil
     k!"setCompuConst_COMPU_DEFAULT_VALUE_CompuConst_L2282" W.setCompuConst_COMPU_DEFAULT_VALUE_CompuConst_L2282
     .nil)
    k!"setCompuConst_COMPU_DEFAULT_VALUE_CompuConst_L2284" W.setCompuConst_COMPU_DEFAULT_VALUE_CompuConst_L2284
    .nil)
   k!"setCompuConst_COMPU_DEFAULT_VALUE_CompuConst_L2286" W.setCompuConst_COMPU_DEFAULT_VALUE_CompuConst_L2286
   (.node (.node .nil
     k!"setEcucNumericalParamValue_EcucNumericalParamValue" W.setEcucNumericalParamValue_EcucNumericalParamValue
     .nil)
    k!"setRoughEstimateStackUsage_RoughEstimateStackUsage" W.setRoughEstimateStackUsage_RoughEstimateStackUsage
    .nil))
  k!"setSwDataDefProps_SW_DATA_DEF_PROPS_SwDataDefProps" W.setSwDataDefProps_SW_DATA_DEF_PROPS_SwDataDefProps
  (.node (.node (.node .nil
     k!"writeAssemblySwConnector_AssemblySwConnector_L1689" W.writeAssemblySwConnector_AssemblySwConnector_L1689
     .nil)
    k!"writeAssemblySwConnector_AssemblySwConnector_L1696" W.writeAssemblySwConnector_AssemblySwConnector_L1696
    .nil)
   k!"writeClientServerAnnotation_ClientServerAnnotation" W.writeClientServerAnnotation_ClientServerAnnotation
   (.node .nil
    k!"writeDataSendCompletedEvent_DataSendCompletedEvent" W.writeDataSendCompletedEvent_DataSendCompletedEvent
    .nil)))
 k!"writeDiagnosticRoutineNeeds_DiagnosticRoutineNeeds" W.writeDiagnosticRoutineNeeds_DiagnosticRoutineNeeds
 (.node (.node (.node (.node .nil
     k!"writeDiagnosticServiceTable_DiagnosticServiceTable" W.writeDiagnosticServiceTable_DiagnosticServiceTable
     .nil)
    k!"writeDynamicPartAlternative_DynamicPartAlternative" W.writeDynamicPartAlternative_DynamicPartAlternative
    .nil)
   k!"writeEOCExecutableEntityRef_EOCExecutableEntityRef" W.writeEOCExecutableEntityRef_EOCExecutableEntityRef
   (.node (.node .nil
     k!"writeEcucChoiceContainerDef_EcucChoiceContainerDef" W.writeEcucChoiceContainerDef_EcucChoiceContainerDef
     .nil)
    k!"writeEcucChoiceReferenceDef_EcucChoiceReferenceDef" W.writeEcucChoiceReferenceDef_EcucChoiceReferenceDef
    .nil))
  k!"writeFlexrayFrameTriggering_FlexrayFrameTriggering" W.writeFlexrayFrameTriggering_FlexrayFrameTriggering
  (.node (.node (.node .nil
     k!"writeFlexrayPhysicalChannel_FlexrayPhysicalChannel" W.writeFlexrayPhysicalChannel_FlexrayPhysicalChannel
     .nil)
    k!"writeImplementationDataType_ImplementationDataType" W.writeImplementationDataType_ImplementationDataType
    .nil)
   k!"writeMcDataAccessDetails_McDataAccessDetails_L4331" W.writeMcDataAccessDetails_McDataAccessDetails_L4331
   (.node .nil
    k!"writeMcDataAccessDetails_McDataAccessDetails_L4336" W.writeMcDataAccessDetails_McDataAccessDetails_L4336
    .nil))))

def writeTable35 : Bst (WB) :=
 (.node (.node (.node (.node (.node .nil
     k!"writeNonqueuedSenderComSpec_NonqueuedSenderComSpec" W.writeNonqueuedSenderComSpec_NonqueuedSenderComSpec
     .nil)
    k!"writeNvBlockSwComponentType_NvBlockSwComponentType" W.writeNvBlockSwComponentType_NvBlockSwComponentType
    .nil)
   k!"writeObdControlServiceNeeds_ObdControlServiceNeeds" W.writeObdControlServiceNeeds_ObdControlServiceNeeds
   (.node (.node .nil
     k!"writeObdMonitorServiceNeeds_ObdMonitorServiceNeeds" W.writeObdMonitorServiceNeeds_ObdMonitorServiceNeeds
     .nil)
    k!"writeParameterDataPrototype_ParameterDataPrototype" W.writeParameterDataPrototype_ParameterDataPrototype
    .nil))
  k!"writePassThroughSwConnector_PassThroughSwConnector" W.writePassThroughSwConnector_PassThroughSwConnector
  (.node (.node (.node .nil
     k!"writePortPrototypeBlueprint_PortPrototypeBlueprint" W.writePortPrototypeBlueprint_PortPrototypeBlueprint
     .nil)
    k!"writeRoughEstimateHeapUsage_RoughEstimateHeapUsage" W.writeRoughEstimateHeapUsage_RoughEstimateHeapUsage
    .nil)
   k!"writeRptExecutableEntity_RptExecutableEntity_L4436" W.writeRptExecutableEntity_RptExecutableEntity_L4436
   (.node .nil
    k!"writeRunnableEntityWaitPoints_RunnableEntity_L3160" W.writeRunnableEntityWaitPoints_RunnableEntity_L3160
    .nil)))
 k!"writeServiceSwComponentType_ServiceSwComponentType" W.writeServiceSwComponentType_ServiceSwComponentType
 (.node (.node (.node (.node .nil
     k!"writeSimulatedExecutionTime_SimulatedExecutionTime" W.writeSimulatedExecutionTime_SimulatedExecutionTime
     .nil)
    k!"writeSocketConnectionBundle_SocketConnectionBundle" W.writeSocketConnectionBundle_SocketConnectionBundle
    .nil)
   k!"writeSwcInternalBehavior_SwcInternalBehavior_L3899" W.writeSwcInternalBehavior_SwcInternalBehavior_L3899
   (.node (.node .nil
     k!"writeTextValueSpecification_TextValueSpecification" W.writeTextValueSpecification_TextValueSpecification
     .nil)
    k!"writeVariationPointProxy_VariationPointProxy_L3267" W.writeVariationPointProxy_VariationPointProxy_L3267
    .nil))
  k!"writeDocumentationBlock_USE_CASE_DocumentationBlock" W.writeDocumentationBlock_USE_CASE_DocumentationBlock
  (.node (.node (.node .nil
     k!"setChildElementJ1939NodeName_NODE_NAME_J1939NodeName" W.setChildElementJ1939NodeName_NODE_NAME_J1939NodeName
     .nil)
    k!"writeArrayValueSpecification_ArrayValueSpecification" W.writeArrayValueSpecification_ArrayValueSpecification
    .nil)
   k!"writeBswModeSwitchedAckEvent_BswModeSwitchedAckEvent" W.writeBswModeSwitchedAckEvent_BswModeSwitchedAckEvent
   (.node .nil
    k!"writeConsumedServiceInstance_ConsumedServiceInstance" W.writeConsumedServiceInstance_ConsumedServiceInstance
    .nil))))

def writeTable36 : Bst (WB) :=
 .node writeTable34 k!"writeModeDeclarationMapping_ModeDeclarationMapping" W.writeModeDeclarationMapping_ModeDeclarationMapping writeTable35

def writeTable37 : Bst (WB) :=
 .node writeTable33 k!"setApplicationArrayElement_ApplicationArrayElement" W.setApplicationArrayElement_ApplicationArrayElement writeTable36

def writeTable38 : Bst (WB) :=
 (.node (.node (.node (.node (.node .nil
     k!"writeDependencyOnArtifact_DependencyOnArtifact_L4539" W.writeDependencyOnArtifact_DependencyOnArtifact_L4539
     .nil)
    k!"writeDocumentationBlock_CONFLICTS_DocumentationBlock" W.writeDocumentationBlock_CONFLICTS_DocumentationBlock
    .nil)
   k!"writeDocumentationBlock_DEF_DocumentationBlock_L1813" W.writeDocumentationBlock_DEF_DocumentationBlock_L1813
   (.node (.node .nil
     k!"writeDocumentationBlock_DEF_DocumentationBlock_L1853" W.writeDocumentationBlock_DEF_DocumentationBlock_L1853
     .nil)
    k!"writeDocumentationBlock_NOTE_TEXT_DocumentationBlock" W.writeDocumentationBlock_NOTE_TEXT_DocumentationBlock
    .nil))
  k!"writeDocumentationBlock_RATIONALE_DocumentationBlock" W.writeDocumentationBlock_RATIONALE_DocumentationBlock
  (.node (.node (.node .nil
     k!"writeEcucEnumerationParamDef_EcucEnumerationParamDef" W.writeEcucEnumerationParamDef_EcucEnumerationParamDef
     .nil)
    k!"writeEthernetPhysicalChannel_EthernetPhysicalChannel" W.writeEthernetPhysicalChannel_EthernetPhysicalChannel
    .nil)
   k!"writeModeSwitchSenderComSpec_ModeSwitchSenderComSpec" W.writeModeSwitchSenderComSpec_ModeSwitchSenderComSpec
   (.node .nil
    k!"writeParameterPortAnnotation_ParameterPortAnnotation" W.writeParameterPortAnnotation_ParameterPortAnnotation
    .nil)))
 k!"writeParameterProvideComSpec_ParameterProvideComSpec" W.writeParameterProvideComSpec_ParameterProvideComSpec
 (.node (.node (.node (.node .nil
     k!"writeParameterRequireComSpec_ParameterRequireComSpec" W.writeParameterRequireComSpec_ParameterRequireComSpec
     .nil)
    k!"writePortInterfaceMappingSet_PortInterfaceMappingSet" W.writePortInterfaceMappingSet_PortInterfaceMappingSet
    .nil)
   k!"writeProvidedServiceInstance_ProvidedServiceInstance" W.writeProvidedServiceInstance_ProvidedServiceInstance
   (.node (.node .nil
     k!"writeReceiverReplaceWith_REPLACE_WITH_VariableAccess" W.writeReceiverReplaceWith_REPLACE_WITH_VariableAccess
     .nil)
    k!"writeRoleBasedDataAssignment_RoleBasedDataAssignment" W.writeRoleBasedDataAssignment_RoleBasedDataAssignment
    .nil))
  k!"writeRoleBasedPortAssignment_RoleBasedPortAssignment" W.writeRoleBasedPortAssignment_RoleBasedPortAssignment
  (.node (.node (.node .nil
     k!"writeSenderReceiverInterface_SenderReceiverInterface" W.writeSenderReceiverInterface_SenderReceiverInterface
     .nil)
    k!"writeVariationPointProxy_VariationPointProxy_L3267_2" W.writeVariationPointProxy_VariationPointProxy_L3267_2
    .nil)
   k!"writeVariationPointProxy_VariationPointProxy_L3267_3" W.writeVariationPointProxy_VariationPointProxy_L3267_3
   (.node .nil
    k!"writeVariationPointProxy_VariationPointProxy_L3267_4" W.writeVariationPointProxy_VariationPointProxy_L3267_4
    .nil))))

def writeTable39 : Bst (WB) :=
 (.node (.node (.node (.node (.node .nil
     k!"writeVariationPointProxy_VariationPointProxy_L3267_6" W.writeVariationPointProxy_VariationPointProxy_L3267_6
     .nil)
    k!"writeVariationPointProxy_VariationPointProxy_L3267_7" W.writeVariationPointProxy_VariationPointProxy_L3267_7
    .nil)
   k!"writeVariationPointProxy_VariationPointProxy_L3267_8" W.writeVariationPointProxy_VariationPointProxy_L3267_8
   (.node (.node .nil
     k!"setAutosarVariableRef_READ_NV_DATA_AutosarVariableRef" W.setAutosarVariableRef_READ_NV_DATA_AutosarVariableRef
     .nil)
    k!"setSwRecordLayoutV_SW_RECORD_LAYOUT_V_SwRecordLayoutV" W.setSwRecordLayoutV_SW_RECORD_LAYOUT_V_SwRecordLayoutV
    .nil))
  k!"setApplicationEntry_APPLICATION_ENTRY_ApplicationEntry" W.setApplicationEntry_APPLICATION_ENTRY_ApplicationEntry
  (.node (.node (.node .nil
     k!"setBufferProperties_BUFFER_PROPERTIES_BufferProperties" W.setBufferProperties_BUFFER_PROPERTIES_BufferProperties
     .nil)
    k!"setModeSwitchReceiverComSpec_ModeSwitchReceiverComSpec" W.setModeSwitchReceiverComSpec_ModeSwitchReceiverComSpec
    .nil)
   k!"writeApplicationArrayDataType_ApplicationArrayDataType" W.writeApplicationArrayDataType_ApplicationArrayDataType
   (.node .nil
    k!"writeApplicationRecordElement_ApplicationRecordElement" W.writeApplicationRecordElement_ApplicationRecordElement
    .nil)))
 k!"writeAutosarEngineeringObject_AutosarEngineeringObject" W.writeAutosarEngineeringObject_AutosarEngineeringObject
 (.node (.node (.node (.node .nil
     k!"writeBswModeManagerErrorEvent_BswModeManagerErrorEvent" W.writeBswModeManagerErrorEvent_BswModeManagerErrorEvent
     .nil)
    k!"writeBswOperationInvokedEvent_BswOperationInvokedEvent" W.writeBswOperationInvokedEvent_BswOperationInvokedEvent
    .nil)
   k!"writeDelegationSwConnector_DelegationSwConnector_L1710" W.writeDelegationSwConnector_DelegationSwConnector_L1710
   (.node (.node .nil
     k!"writeDelegationSwConnector_DelegationSwConnector_L1714" W.writeDelegationSwConnector_DelegationSwConnector_L1714
     .nil)
    k!"writeDiagnosticEventInfoNeeds_DiagnosticEventInfoNeeds" W.writeDiagnosticEventInfoNeeds_DiagnosticEventInfoNeeds
    .nil))
  k!"writeDiagnosticIoControlNeeds_DiagnosticIoControlNeeds" W.writeDiagnosticIoControlNeeds_DiagnosticIoControlNeeds
  (.node (.node (.node .nil
     k!"writeDocumentationBlock_DESCRIPTION_DocumentationBlock" W.writeDocumentationBlock_DESCRIPTION_DocumentationBlock
     .nil)
    k!"writeEcucDefinitionCollection_EcucDefinitionCollection" W.writeEcucDefinitionCollection_EcucDefinitionCollection
    .nil)
   k!"writeEcucDefinitionElement_EcucDefinitionElement_L7108" W.writeEcucDefinitionElement_EcucDefinitionElement_L7108
   (.node .nil
    k!"writeEcucDestinationUriDefSet_EcucDestinationUriDefSet" W.writeEcucDestinationUriDefSet_EcucDestinationUriDefSet
    .nil))))

def writeTable40 : Bst (WB) :=
 .node writeTable38 k!"writeVariationPointProxy_VariationPointProxy_L3267_5" W.writeVariationPointProxy_VariationPointProxy_L3267_5 writeTable39

def writeTable41 : Bst (WB) :=
 (.node (.node (.node (.node (.node .nil
     k!"writeEcucInstanceReferenceDef_EcucInstanceReferenceDef" W.writeEcucInstanceReferenceDef_EcucInstanceReferenceDef
     .nil)
    k!"writeExclusiveAreaNestingOrders_InternalBehavior_L2679" W.writeExclusiveAreaNestingOrders_InternalBehavior_L2679
    .nil)
   k!"writeExecutionOrderConstraint_ExecutionOrderConstraint" W.writeExecutionOrderConstraint_ExecutionOrderConstraint
   (.node (.node .nil
     k!"writeNonqueuedReceiverComSpec_NonqueuedReceiverComSpec" W.writeNonqueuedReceiverComSpec_NonqueuedReceiverComSpec
     .nil)
    k!"writeObdRatioDenominatorNeeds_ObdRatioDenominatorNeeds" W.writeObdRatioDenominatorNeeds_ObdRatioDenominatorNeeds
    .nil))
  k!"writeRecordValueSpecification_RecordValueSpecification" W.writeRecordValueSpecification_RecordValueSpecification
  (.node (.node (.node .nil
     k!"writeSenderReceiverAnnotation_SenderReceiverAnnotation" W.writeSenderReceiverAnnotation_SenderReceiverAnnotation
     .nil)
    k!"writeSwSystemconstantValueSet_SwSystemconstantValueSet" W.writeSwSystemconstantValueSet_SwSystemconstantValueSet
    .nil)
   k!"writeTransformationTechnology_TransformationTechnology" W.writeTransformationTechnology_TransformationTechnology
   (.node .nil
    k!"writeTransmissionComSpecProps_TransmissionComSpecProps" W.writeTransmissionComSpecProps_TransmissionComSpecProps
    .nil)))
 k!"setAutosarParameterRef_AR_PARAMETER_AutosarParameterRef" W.setAutosarParameterRef_AR_PARAMETER_AutosarParameterRef
 (.node (.node (.node (.node .nil
     k!"setFlexrayFifoRange_FLEXRAY_FIFO_RANGE_FlexrayFifoRange" W.setFlexrayFifoRange_FLEXRAY_FIFO_RANGE_FlexrayFifoRange
     .nil)
    k!"setMultiLanguageVerbatim_VERBATIM_MultiLanguageVerbatim" W.setMultiLanguageVerbatim_VERBATIM_MultiLanguageVerbatim
    .nil)
   k!"setSwDataDefProps_NETWORK_REPRESENTATION_SwDataDefProps" W.setSwDataDefProps_NETWORK_REPRESENTATION_SwDataDefProps
   (.node (.node .nil
     k!"writeDocumentationBlock_DEPENDENCIES_DocumentationBlock" W.writeDocumentationBlock_DEPENDENCIES_DocumentationBlock
     .nil)
    k!"writeDocumentationBlock_INTRODUCTION_DocumentationBlock" W.writeDocumentationBlock_INTRODUCTION_DocumentationBlock
    .nil))
  k!"writeModeSwitchPointModeGroupIRef_ModeSwitchPoint_L3119" W.writeModeSwitchPointModeGroupIRef_ModeSwitchPoint_L3119
  (.node (.node (.node .nil
     k!"setAnyInstanceRef_UPSTREAM_REFERENCE_IREF_AnyInstanceRef" W.setAnyInstanceRef_UPSTREAM_REFERENCE_IREF_AnyInstanceRef
     .nil)
    k!"setAutosarVariableRef_WRITTEN_NV_DATA_AutosarVariableRef" W.setAutosarVariableRef_WRITTEN_NV_DATA_AutosarVariableRef
    .nil)
   k!"setDiagEventDebounceTimeBased_DiagEventDebounceTimeBased" W.setDiagEventDebounceTimeBased_DiagEventDebounceTimeBased
   (.node .nil
    k!"setEcucInstanceReferenceValue_EcucInstanceReferenceValue" W.setEcucInstanceReferenceValue_EcucInstanceReferenceValue
    .nil))))

def writeTable42 : Bst (WB) :=
 (.node (.node (.node (.node (.node .nil
     k!"setSynchronousServerCallPoint_SynchronousServerCallPoint" W.setSynchronousServerCallPoint_SynchronousServerCallPoint
     .nil)
    k!"writeApplicationRecordDataType_ApplicationRecordDataType" W.writeApplicationRecordDataType_ApplicationRecordDataType
    .nil)
   k!"writeBswServiceDependencyIdent_BswServiceDependencyIdent" W.writeBswServiceDependencyIdent_BswServiceDependencyIdent
   (.node (.node .nil
     k!"writeDocumentationBlock_ITEM_CONTENTS_DocumentationBlock" W.writeDocumentationBlock_ITEM_CONTENTS_DocumentationBlock
     .nil)
    k!"writeEcucEnumerationLiteralDef_EcucEnumerationLiteralDef" W.writeEcucEnumerationLiteralDef_EcucEnumerationLiteralDef
    .nil))
  k!"writeEcucParamConfContainerDef_EcucParamConfContainerDef" W.writeEcucParamConfContainerDef_EcucParamConfContainerDef
  (.node (.node (.node .nil
     k!"writeModeDeclarationMappingSet_ModeDeclarationMappingSet" W.writeModeDeclarationMappingSet_ModeDeclarationMappingSet
     .nil)
    k!"writePostBuildVariantCondition_PostBuildVariantCondition" W.writePostBuildVariantCondition_PostBuildVariantCondition
    .nil)
   k!"writePostBuildVariantCriterion_PostBuildVariantCriterion" W.writePostBuildVariantCriterion_PostBuildVariantCriterion
   (.node .nil
    k!"writeSwcBswSynchronizedTrigger_SwcBswSynchronizedTrigger" W.writeSwcBswSynchronizedTrigger_SwcBswSynchronizedTrigger
    .nil)))
 k!"setAutosarVariableRef_AUTOSAR_VARIABLE_AutosarVariableRef" W.setAutosarVariableRef_AUTOSAR_VARIABLE_AutosarVariableRef
 (.node (.node (.node (.node .nil
     k!"setMultiLanguagePlainText_TEX_MATH_MultiLanguagePlainText" W.setMultiLanguagePlainText_TEX_MATH_MultiLanguagePlainText
     .nil)
    k!"writeSocketAddressApplicationEndpoint_SocketAddress_L6734" W.writeSocketAddressApplicationEndpoint_SocketAddress_L6734
    .nil)
   k!"setAsynchronousServerCallPoint_AsynchronousServerCallPoint" W.setAsynchronousServerCallPoint_AsynchronousServerCallPoint
   (.node (.node .nil
     k!"setAutosarVariableRef_ACCESSED_VARIABLE_AutosarVariableRef" W.setAutosarVariableRef_ACCESSED_VARIABLE_AutosarVariableRef
     .nil)
    k!"setAutosarVariableRef_USED_DATA_ELEMENT_AutosarVariableRef" W.setAutosarVariableRef_USED_DATA_ELEMENT_AutosarVariableRef
    .nil))
  k!"setAutosarVariableRef_VARIABLE_INSTANCE_AutosarVariableRef" W.setAutosarVariableRef_VARIABLE_INSTANCE_AutosarVariableRef
  (.node (.node (.node .nil
     k!"writeApplicationSwComponentType_ApplicationSwComponentType" W.writeApplicationSwComponentType_ApplicationSwComponentType
     .nil)
    k!"writeBswInternalTriggeringPoint_BswInternalTriggeringPoint" W.writeBswInternalTriggeringPoint_BswInternalTriggeringPoint
    .nil)
   k!"writeBswModuleClientServerEntry_BswModuleClientServerEntry" W.writeBswModuleClientServerEntry_BswModuleClientServerEntry
   (.node .nil
    k!"writeCanCommunicationController_CanCommunicationController" W.writeCanCommunicationController_CanCommunicationController
    .nil))))

def writeTable43 : Bst (WB) :=
 .node writeTable41 k!"setSwCalprmRefProxy_SW_CALPRM_REF_PROXY_SwCalprmRefProxy" W.setSwCalprmRefProxy_SW_CALPRM_REF_PROXY_SwCalprmRefProxy writeTable42

def writeTable44 : Bst (WB) :=
 .node writeTable40 k!"writeEcucDestinationUriPolicy_EcucDestinationUriPolicy" W.writeEcucDestinationUriPolicy_EcucDestinationUriPolicy writeTable43

def writeTable45 : Bst (WB) :=
 .node writeTable37 k!"writeDelegatedPortAnnotation_DelegatedPortAnnotation" W.writeDelegatedPortAnnotation_DelegatedPortAnnotation writeTable44

def writeTable46 : Bst (WB) :=
 (.node (.node (.node (.node (.node .nil
     k!"writeDocumentationBlock_ANNOTATION_TEXT_DocumentationBlock" W.writeDocumentationBlock_ANNOTATION_TEXT_DocumentationBlock
     .nil)
    k!"writeEcucConditionSpecification_EcucConditionSpecification" W.writeEcucConditionSpecification_EcucConditionSpecification
    .nil)
   k!"writeEcucValidationCondition_EcucValidationCondition_L7100" W.writeEcucValidationCondition_EcucValidationCondition_L7100
   (.node (.node .nil
     k!"writeInnerGroupIRef_InnerPortGroupInCompositionInstanceRef" W.writeInnerGroupIRef_InnerPortGroupInCompositionInstanceRef
     .nil)
    k!"writeSenderRecRecordTypeMapping_SenderRecRecordTypeMapping" W.writeSenderRecRecordTypeMapping_SenderRecRecordTypeMapping
    .nil))
  k!"setAnyInstanceRef_ECU_EXTRACT_REFERENCE_IREF_AnyInstanceRef" W.setAnyInstanceRef_ECU_EXTRACT_REFERENCE_IREF_AnyInstanceRef
  (.node (.node (.node .nil
     k!"writeConditionByFormula_ConditionByFormula_CONDITION_ACCESS" W.writeConditionByFormula_ConditionByFormula_CONDITION_ACCESS
     .nil)
    k!"writeModeSwitchInterfaceModeGroup_ModeSwitchInterface_L5688" W.writeModeSwitchInterfaceModeGroup_ModeSwitchInterface_L5688
    .nil)
   k!"writeEcucDerivationSpecification_EcucDerivationSpecification" W.writeEcucDerivationSpecification_EcucDerivationSpecification
   (.node (.node .nil
     k!"writeEcucMultilineStringParamDef_EcucMultilineStringParamDef" W.writeEcucMultilineStringParamDef_EcucMultilineStringParamDef
     .nil)
    k!"writeEcucValueConfigurationClass_EcucValueConfigurationClass" W.writeEcucValueConfigurationClass_EcucValueConfigurationClass
    .nil)))
 k!"writeNumericalValueSpecification_NumericalValueSpecification" W.writeNumericalValueSpecification_NumericalValueSpecification
 (.node (.node (.node (.node .nil
     k!"writeRoleBasedDataTypeAssignment_RoleBasedDataTypeAssignment" W.writeRoleBasedDataTypeAssignment_RoleBasedDataTypeAssignment
     .nil)
    k!"writeRptExecutableEntityEvent_RptExecutableEntityEvent_L4416" W.writeRptExecutableEntityEvent_RptExecutableEntityEvent_L4416
    .nil)
   k!"writeSecureCommunicationPropsSet_SecureCommunicationPropsSet" W.writeSecureCommunicationPropsSet_SecureCommunicationPropsSet
   (.node (.node .nil
     k!"writeServiceProxySwComponentType_ServiceProxySwComponentType" W.writeServiceProxySwComponentType_ServiceProxySwComponentType
     .nil)
    k!"setAutosarParameterRef_ACCESSED_PARAMETER_AutosarParameterRef" W.setAutosarParameterRef_ACCESSED_PARAMETER_AutosarParameterRef
    .nil))
  k!"setAutosarParameterRef_PARAMETER_INSTANCE_AutosarParameterRef" W.setAutosarParameterRef_PARAMETER_INSTANCE_AutosarParameterRef
  (.node (.node (.node .nil
     k!"setAutosarVariableRef_NV_RAM_BLOCK_ELEMENT_AutosarVariableRef" W.setAutosarVariableRef_NV_RAM_BLOCK_ELEMENT_AutosarVariableRef
     .nil)
    k!"setAutosarVariableRef_WRITTEN_READ_NV_DATA_AutosarVariableRef" W.setAutosarVariableRef_WRITTEN_READ_NV_DATA_AutosarVariableRef
    .nil)
   k!"setEndToEndDescription_END_TO_END_PROFILE_EndToEndDescription" W.setEndToEndDescription_END_TO_END_PROFILE_EndToEndDescription
   (.node .nil
    k!"setMultiLanguagePlainText_GENERIC_MATH_MultiLanguagePlainText" W.setMultiLanguagePlainText_GENERIC_MATH_MultiLanguagePlainText
    .nil))))

def writeTable47 : Bst (WB) :=
 (.node (.node (.node (.node (.node .nil
     k!"writeInstantiationRTEEventProps_InstantiationTimingEventProps" W.writeInstantiationRTEEventProps_InstantiationTimingEventProps
     .nil)
    k!"setBswModeSwitchAckRequest_ACK_REQUEST_BswModeSwitchAckRequest" W.setBswModeSwitchAckRequest_ACK_REQUEST_BswModeSwitchAckRequest
    .nil)
   k!"setDiagEventDebounceCounterBased_DiagEventDebounceCounterBased" W.setDiagEventDebounceCounterBased_DiagEventDebounceCounterBased
   (.node (.node .nil
     k!"setMultidimensionalTime_SW_REFRESH_TIMING_MultidimensionalTime" W.setMultidimensionalTime_SW_REFRESH_TIMING_MultidimensionalTime
     .nil)
    k!"setSwVariableRefProxy_SW_VARIABLE_REF_PROXY_SwVariableRefProxy" W.setSwVariableRefProxy_SW_VARIABLE_REF_PROXY_SwVariableRefProxy
    .nil))
  k!"writeApplicationPrimitiveDataType_ApplicationPrimitiveDataType" W.writeApplicationPrimitiveDataType_ApplicationPrimitiveDataType
  (.node (.node (.node .nil
     k!"writeBswQueuedDataReceptionPolicy_BswQueuedDataReceptionPolicy" W.writeBswQueuedDataReceptionPolicy_BswQueuedDataReceptionPolicy
     .nil)
    k!"writeClientServerInterfaceMapping_ClientServerInterfaceMapping" W.writeClientServerInterfaceMapping_ClientServerInterfaceMapping
    .nil)
   k!"writeClientServerOperationMapping_ClientServerOperationMapping" W.writeClientServerOperationMapping_ClientServerOperationMapping
   (.node .nil
    k!"writeDocumentationBlock_BLUEPRINT_CONDITION_DocumentationBlock" W.writeDocumentationBlock_BLUEPRINT_CONDITION_DocumentationBlock
    .nil)))
 k!"writeDocumentationBlock_DOCUMENTATION_BLOCK_DocumentationBlock" W.writeDocumentationBlock_DOCUMENTATION_BLOCK_DocumentationBlock
 (.node (.node (.node (.node .nil
     k!"writeDocumentationBlock_MSR_QUERY_RESULT_P2_DocumentationBlock" W.writeDocumentationBlock_MSR_QUERY_RESULT_P2_DocumentationBlock
     .nil)
    k!"writeDocumentationBlock_SUPPORTING_MATERIAL_DocumentationBlock" W.writeDocumentationBlock_SUPPORTING_MATERIAL_DocumentationBlock
    .nil)
   k!"writeE2EProfileCompatibilityProps_E2EProfileCompatibilityProps" W.writeE2EProfileCompatibilityProps_E2EProfileCompatibilityProps
   (.node (.node .nil
     k!"writeEcucSymbolicNameReferenceDef_EcucSymbolicNameReferenceDef" W.writeEcucSymbolicNameReferenceDef_EcucSymbolicNameReferenceDef
     .nil)
    k!"writeEthernetPhysicalChannelVlan_EthernetPhysicalChannel_L6776" W.writeEthernetPhysicalChannelVlan_EthernetPhysicalChannel_L6776
    .nil))
  k!"writeEthernetPriorityRegeneration_EthernetPriorityRegeneration" W.writeEthernetPriorityRegeneration_EthernetPriorityRegeneration
  (.node (.node (.node .nil
     k!"writeRoughEstimateOfExecutionTime_RoughEstimateOfExecutionTime" W.writeRoughEstimateOfExecutionTime_RoughEstimateOfExecutionTime
     .nil)
    k!"setMultiLanguagePlainText_USED_LANGUAGES_MultiLanguagePlainText" W.setMultiLanguagePlainText_USED_LANGUAGES_MultiLanguagePlainText
    .nil)
   k!"writeModeInterfaceMappingModeMapping_ModeInterfaceMapping_L8150" W.writeModeInterfaceMappingModeMapping_ModeInterfaceMapping_L8150
   (.node .nil
    k!"setCouplingPortDetails_COUPLING_PORT_DETAILS_CouplingPortDetails" W.setCouplingPortDetails_COUPLING_PORT_DETAILS_CouplingPortDetails
    .nil))))

def writeTable48 : Bst (WB) :=
 .node writeTable46 k!"setSwDataDefProps_NETWORK_REPRESENTATION_PROPS_SwDataDefProps" W.setSwDataDefProps_NETWORK_REPRESENTATION_PROPS_SwDataDefProps writeTable47

def writeTable49 : Bst (WB) :=
 (.node (.node (.node (.node (.node .nil
     k!"writeApplicationValueSpecification_ApplicationValueSpecification" W.writeApplicationValueSpecification_ApplicationValueSpecification
     .nil)
    k!"writeBswSynchronousServerCallPoint_BswSynchronousServerCallPoint" W.writeBswSynchronousServerCallPoint_BswSynchronousServerCallPoint
    .nil)
   k!"writeDiagnosticOperationCycleNeeds_DiagnosticOperationCycleNeeds" W.writeDiagnosticOperationCycleNeeds_DiagnosticOperationCycleNeeds
   (.node (.node .nil
     k!"writeEcuAbstractionSwComponentType_EcuAbstractionSwComponentType" W.writeEcuAbstractionSwComponentType_EcuAbstractionSwComponentType
     .nil)
    k!"writeEcucConditionFormula_CONDITION_FORMULA_EcucConditionFormula" W.writeEcucConditionFormula_CONDITION_FORMULA_EcucConditionFormula
    .nil))
  k!"writeEcucModuleConfigurationValues_EcucModuleConfigurationValues" W.writeEcucModuleConfigurationValues_EcucModuleConfigurationValues
  (.node (.node (.node .nil
     k!"writeEndToEndProtectionISignalIPdu_EndToEndProtectionISignalIPdu" W.writeEndToEndProtectionISignalIPdu_EndToEndProtectionISignalIPdu
     .nil)
    k!"writeImplementationDataTypeElement_ImplementationDataTypeElement" W.writeImplementationDataTypeElement_ImplementationDataTypeElement
    .nil)
   k!"writeMcSwEmulationMethodSupport_McSwEmulationMethodSupport_L4308" W.writeMcSwEmulationMethodSupport_McSwEmulationMethodSupport_L4308
   (.node .nil
    k!"writeModeDeclarationGroupPrototype_ModeDeclarationGroupPrototype" W.writeModeDeclarationGroupPrototype_ModeDeclarationGroupPrototype
    .nil)))
 k!"writeReceptionComSpecProps_RECEPTION_PROPS_ReceptionComSpecProps" W.writeReceptionComSpecProps_RECEPTION_PROPS_ReceptionComSpecProps
 (.node (.node (.node (.node .nil
     k!"writeRunnableEntityExternalTriggeringPoints_RunnableEntity_L3098" W.writeRunnableEntityExternalTriggeringPoints_RunnableEntity_L3098
     .nil)
    k!"writeSenderRecRecordElementMapping_SenderRecRecordElementMapping" W.writeSenderRecRecordElementMapping_SenderRecRecordElementMapping
    .nil)
   k!"writeSenderReceiverToSignalMapping_SenderReceiverToSignalMapping" W.writeSenderReceiverToSignalMapping_SenderReceiverToSignalMapping
   (.node (.node .nil
     k!"writeSensorActuatorSwComponentType_SensorActuatorSwComponentType" W.writeSensorActuatorSwComponentType_SensorActuatorSwComponentType
     .nil)
    k!"writeSignalServiceTranslationProps_SignalServiceTranslationProps" W.writeSignalServiceTranslationProps_SignalServiceTranslationProps
    .nil))
  k!"writeSwcInternalBehaviorPortAPIOptions_SwcInternalBehavior_L3313" W.writeSwcInternalBehaviorPortAPIOptions_SwcInternalBehavior_L3313
  (.node (.node (.node .nil
     k!"writeSwcInternalBehaviorPortAPIOptions_SwcInternalBehavior_L3323" W.writeSwcInternalBehaviorPortAPIOptions_SwcInternalBehavior_L3323
     .nil)
    k!"setAutosarParameterRef_USED_PARAMETER_ELEMENT_AutosarParameterRef" W.setAutosarParameterRef_USED_PARAMETER_ELEMENT_AutosarParameterRef
    .nil)
   k!"setSwRecordLayoutGroup_SW_RECORD_LAYOUT_GROUP_SwRecordLayoutGroup" W.setSwRecordLayoutGroup_SW_RECORD_LAYOUT_GROUP_SwRecordLayoutGroup
   (.node .nil
    k!"writeEcucConditionFormula_VALIDATION_FORMULA_EcucConditionFormula" W.writeEcucConditionFormula_VALIDATION_FORMULA_EcucConditionFormula
    .nil))))

def writeTable50 : Bst (WB) :=
 (.node (.node (.node (.node (.node .nil
     k!"setChildElementRxIdentifierRange_NM_RANGE_CONFIG_RxIdentifierRange" W.setChildElementRxIdentifierRange_NM_RANGE_CONFIG_RxIdentifierRange
     .nil)
    k!"setInitialSdDelayConfig_INITIAL_FIND_BEHAVIOR_InitialSdDelayConfig" W.setInitialSdDelayConfig_INITIAL_FIND_BEHAVIOR_InitialSdDelayConfig
    .nil)
   k!"setModeSwitchedAckRequest_MODE_SWITCHED_ACK_ModeSwitchedAckRequest" W.setModeSwitchedAckRequest_MODE_SWITCHED_ACK_ModeSwitchedAckRequest
   (.node (.node .nil
     k!"setRVariableInAtomicSwcInstanceRef_RVariableInAtomicSwcInstanceRef" W.setRVariableInAtomicSwcInstanceRef_RVariableInAtomicSwcInstanceRef
     .nil)
    k!"writeBswAsynchronousServerCallPoint_BswAsynchronousServerCallPoint" W.writeBswAsynchronousServerCallPoint_BswAsynchronousServerCallPoint
    .nil))
  k!"writeCompositeNetworkRepresentation_CompositeNetworkRepresentation" W.writeCompositeNetworkRepresentation_CompositeNetworkRepresentation
  (.node (.node (.node .nil
     k!"writeDiagnosticEnableConditionNeeds_DiagnosticEnableConditionNeeds" W.writeDiagnosticEnableConditionNeeds_DiagnosticEnableConditionNeeds
     .nil)
    k!"writeEcucParameterDerivationFormula_EcucParameterDerivationFormula" W.writeEcucParameterDerivationFormula_EcucParameterDerivationFormula
    .nil)
   k!"writeFlexrayCommunicationController_FlexrayCommunicationController" W.writeFlexrayCommunicationController_FlexrayCommunicationController
   (.node .nil
    k!"writeModeDeclarationGroupModeTransition_ModeDeclarationGroup_L5669" W.writeModeDeclarationGroupModeTransition_ModeDeclarationGroup_L5669
    .nil)))
 k!"writeSwComponentTypeSwComponentDocumentation_SwComponentType_L1547" W.writeSwComponentTypeSwComponentDocumentation_SwComponentType_L1547
 (.node (.node (.node (.node .nil
     k!"setInitialSdDelayConfig_INITIAL_OFFER_BEHAVIOR_InitialSdDelayConfig" W.setInitialSdDelayConfig_INITIAL_OFFER_BEHAVIOR_InitialSdDelayConfig
     .nil)
    k!"setMultidimensionalTime_MAXIMUM_EXECUTION_TIME_MultidimensionalTime" W.setMultidimensionalTime_MAXIMUM_EXECUTION_TIME_MultidimensionalTime
    .nil)
   k!"setMultidimensionalTime_MINIMUM_EXECUTION_TIME_MultidimensionalTime" W.setMultidimensionalTime_MINIMUM_EXECUTION_TIME_MultidimensionalTime
   (.node (.node .nil
     k!"setMultidimensionalTime_NOMINAL_EXECUTION_TIME_MultidimensionalTime" W.setMultidimensionalTime_NOMINAL_EXECUTION_TIME_MultidimensionalTime
     .nil)
    k!"setRequestResponseDelay_REQUEST_RESPONSE_DELAY_RequestResponseDelay" W.setRequestResponseDelay_REQUEST_RESPONSE_DELAY_RequestResponseDelay
    .nil))
  k!"writeInstantiationRTEEventProps_InstantiationTimingEventProps_L1772" W.writeInstantiationRTEEventProps_InstantiationTimingEventProps_L1772
  (.node (.node (.node .nil
     k!"setDiagEventDebounceMonitorInternal_DiagEventDebounceMonitorInternal" W.setDiagEventDebounceMonitorInternal_DiagEventDebounceMonitorInternal
     .nil)
    k!"setRModeInAtomicSwcInstanceRef_MODE_IREF_RModeInAtomicSwcInstanceRef" W.setRModeInAtomicSwcInstanceRef_MODE_IREF_RModeInAtomicSwcInstanceRef
    .nil)
   k!"setSwPointerTargetProps_SW_POINTER_TARGET_PROPS_SwPointerTargetProps" W.setSwPointerTargetProps_SW_POINTER_TARGET_PROPS_SwPointerTargetProps
   (.node .nil
    k!"writeBswExternalTriggerOccurredEvent_BswExternalTriggerOccurredEvent" W.writeBswExternalTriggerOccurredEvent_BswExternalTriggerOccurredEvent
    .nil))))

def writeTable51 : Bst (WB) :=
 .node writeTable49 k!"writeModeErrorBehavior_MODE_USER_ERROR_BEHAVIOR_ModeErrorBehavior" W.writeModeErrorBehavior_MODE_USER_ERROR_BEHAVIOR_ModeErrorBehavior writeTable50

def writeTable52 : Bst (WB) :=
 .node writeTable48 k!"setSocketConnectionIpduIdentifier_SocketConnectionIpduIdentifier" W.setSocketConnectionIpduIdentifier_SocketConnectionIpduIdentifier writeTable51

def writeTable53 : Bst (WB) :=
 (.node (.node (.node (.node (.node .nil
     k!"writeDataPrototypeInPortInterfaceRef_DataPrototypeInPortInterfaceRef" W.writeDataPrototypeInPortInterfaceRef_DataPrototypeInPortInterfaceRef
     .nil)
    k!"writeDiagnosticStorageConditionNeeds_DiagnosticStorageConditionNeeds" W.writeDiagnosticStorageConditionNeeds_DiagnosticStorageConditionNeeds
    .nil)
   k!"writeEthernetCommunicationController_EthernetCommunicationController" W.writeEthernetCommunicationController_EthernetCommunicationController
   (.node (.node .nil
     k!"writeIncludedModeDeclarationGroupSet_IncludedModeDeclarationGroupSet" W.writeIncludedModeDeclarationGroupSet_IncludedModeDeclarationGroupSet
     .nil)
    k!"writeIoHwAbstractionServerAnnotation_IoHwAbstractionServerAnnotation" W.writeIoHwAbstractionServerAnnotation_IoHwAbstractionServerAnnotation
    .nil))
  k!"writeModeErrorBehavior_MODE_MANAGER_ERROR_BEHAVIOR_ModeErrorBehavior" W.writeModeErrorBehavior_MODE_MANAGER_ERROR_BEHAVIOR_ModeErrorBehavior
  (.node (.node (.node .nil
     k!"writeSecureOnBoardCommunicationNeeds_SecureOnBoardCommunicationNeeds" W.writeSecureOnBoardCommunicationNeeds_SecureOnBoardCommunicationNeeds
     .nil)
    k!"setCanClusterBusOffRecovery_BUS_OFF_RECOVERY_CanClusterBusOffRecovery" W.setCanClusterBusOffRecovery_BUS_OFF_RECOVERY_CanClusterBusOffRecovery
    .nil)
   k!"setMultiLanguageOverviewParagraph_DESC_MultiLanguageOverviewParagraph" W.setMultiLanguageOverviewParagraph_DESC_MultiLanguageOverviewParagraph
   (.node .nil
    k!"setMultidimensionalTime_BEST_CASE_EXECUTION_TIME_MultidimensionalTime" W.setMultidimensionalTime_BEST_CASE_EXECUTION_TIME_MultidimensionalTime
    .nil)))
 k!"setMultidimensionalTime_ESTIMATED_EXECUTION_TIME_MultidimensionalTime" W.setMultidimensionalTime_ESTIMATED_EXECUTION_TIME_MultidimensionalTime
 (.node (.node (.node (.node .nil
     k!"writeSwcInternalBehaviorPerInstanceMemories_SwcInternalBehavior_L3233" W.writeSwcInternalBehaviorPerInstanceMemories_SwcInternalBehavior_L3233
     .nil)
    k!"setChildElementRxIdentifierRange_RX_IDENTIFIER_RANGE_RxIdentifierRange" W.setChildElementRxIdentifierRange_RX_IDENTIFIER_RANGE_RxIdentifierRange
    .nil)
   k!"setEventControlledTiming_EVENT_CONTROLLED_TIMING_EventControlledTiming" W.setEventControlledTiming_EVENT_CONTROLLED_TIMING_EventControlledTiming
   (.node (.node .nil
     k!"setMultidimensionalTime_WORST_CASE_EXECUTION_TIME_MultidimensionalTime" W.setMultidimensionalTime_WORST_CASE_EXECUTION_TIME_MultidimensionalTime
     .nil)
    k!"writeDataPrototypeTransformationProps_DataPrototypeTransformationProps" W.writeDataPrototypeTransformationProps_DataPrototypeTransformationProps
    .nil))
  k!"writeDtcStatusChangeNotificationNeeds_DtcStatusChangeNotificationNeeds" W.writeDtcStatusChangeNotificationNeeds_DtcStatusChangeNotificationNeeds
  (.node (.node (.node .nil
     k!"writeFlexrayAbsolutelyScheduledTiming_FlexrayAbsolutelyScheduledTiming" W.writeFlexrayAbsolutelyScheduledTiming_FlexrayAbsolutelyScheduledTiming
     .nil)
    k!"writeModeSwitchEventTriggeredActivity_ModeSwitchEventTriggeredActivity" W.writeModeSwitchEventTriggeredActivity_ModeSwitchEventTriggeredActivity
    .nil)
   k!"writePModeGroupInAtomicSWCInstanceRef_PModeGroupInAtomicSwcInstanceRef" W.writePModeGroupInAtomicSWCInstanceRef_PModeGroupInAtomicSwcInstanceRef
   (.node .nil
    k!"writeRModeGroupInAtomicSWCInstanceRef_RModeGroupInAtomicSWCInstanceRef" W.writeRModeGroupInAtomicSWCInstanceRef_RModeGroupInAtomicSWCInstanceRef
    .nil))))

def writeTable54 : Bst (WB) :=
 (.node (.node (.node (.node (.node .nil
     k!"setMultiLanguageOverviewParagraph_CHANGE_MultiLanguageOverviewParagraph" W.setMultiLanguageOverviewParagraph_CHANGE_MultiLanguageOverviewParagraph
     .nil)
    k!"setMultiLanguageOverviewParagraph_REASON_MultiLanguageOverviewParagraph" W.setMultiLanguageOverviewParagraph_REASON_MultiLanguageOverviewParagraph
    .nil)
   k!"writeSwcInternalBehaviorExclusiveAreaPolicies_SwcInternalBehavior_L3934" W.writeSwcInternalBehaviorExclusiveAreaPolicies_SwcInternalBehavior_L3934
   (.node (.node .nil
     k!"setInfrastructureServices_INFRASTRUCTURE_SERVICES_InfrastructureServices" W.setInfrastructureServices_INFRASTRUCTURE_SERVICES_InfrastructureServices
     .nil)
    k!"writeEndToEndTransformationDescription_EndToEndTransformationDescription" W.writeEndToEndTransformationDescription_EndToEndTransformationDescription
    .nil))
  k!"writeRoleBasedBswModuleEntryAssignment_RoleBasedBswModuleEntryAssignment" W.writeRoleBasedBswModuleEntryAssignment_RoleBasedBswModuleEntryAssignment
  (.node (.node (.node .nil
     k!"writeSecureCommunicationFreshnessProps_SecureCommunicationFreshnessProps" W.writeSecureCommunicationFreshnessProps_SecureCommunicationFreshnessProps
     .nil)
    k!"writeBswModuleDescriptionBswModuleDependencies_BswModuleDescription_L5193" W.writeBswModuleDescriptionBswModuleDependencies_BswModuleDescription_L5193
    .nil)
   k!"writeRunnableEntityAsynchronousServerCallResultPoint_RunnableEntity_L3172" W.writeRunnableEntityAsynchronousServerCallResultPoint_RunnableEntity_L3172
   (.node .nil
    k!"writeAsynchronousServerCallReturnsEvent_AsynchronousServerCallReturnsEvent" W.writeAsynchronousServerCallReturnsEvent_AsynchronousServerCallReturnsEvent
    .nil)))
 k!"writeComplexDeviceDriverSwComponentType_ComplexDeviceDriverSwComponentType" W.writeComplexDeviceDriverSwComponentType_ComplexDeviceDriverSwComponentType
 (.node (.node (.node (.node .nil
     k!"writeEcucMultiplicityConfigurationClass_EcucMultiplicityConfigurationClass" W.writeEcucMultiplicityConfigurationClass_EcucMultiplicityConfigurationClass
     .nil)
    k!"writeEndToEndTransformationComSpecProps_EndToEndTransformationComSpecProps" W.writeEndToEndTransformationComSpecProps_EndToEndTransformationComSpecProps
    .nil)
   k!"writeEndToEndTransformationISignalProps_EndToEndTransformationISignalProps" W.writeEndToEndTransformationISignalProps_EndToEndTransformationISignalProps
   (.node (.node .nil
     k!"writeSenderReceiverToSignalGroupMapping_SenderReceiverToSignalGroupMapping" W.writeSenderReceiverToSignalGroupMapping_SenderReceiverToSignalGroupMapping
     .nil)
    k!"writeSignalServiceTranslationEventProps_SignalServiceTranslationEventProps" W.writeSignalServiceTranslationEventProps_SignalServiceTranslationEventProps
    .nil))
  k!"writeTransmissionAcknowledgementRequest_TransmissionAcknowledgementRequest" W.writeTransmissionAcknowledgementRequest_TransmissionAcknowledgementRequest
  (.node (.node (.node .nil
     k!"setComponentInSystemInstanceRef_COMPONENT_IREF_ComponentInSystemInstanceRef" W.setComponentInSystemInstanceRef_COMPONENT_IREF_ComponentInSystemInstanceRef
     .nil)
    k!"setMultiLanguageOverviewParagraph_ITEM_LABEL_MultiLanguageOverviewParagraph" W.setMultiLanguageOverviewParagraph_ITEM_LABEL_MultiLanguageOverviewParagraph
    .nil)
   k!"writeDiagnosticCommunicationManagerNeeds_DiagnosticCommunicationManagerNeeds" W.writeDiagnosticCommunicationManagerNeeds_DiagnosticCommunicationManagerNeeds
   (.node .nil
    k!"writeEndToEndProtectionVariablePrototype_EndToEndProtectionVariablePrototype" W.writeEndToEndProtectionVariablePrototype_EndToEndProtectionVariablePrototype
    .nil))))

def writeTable55 : Bst (WB) :=
 .node writeTable53 k!"writeSignalServiceTranslationPropsSet_SignalServiceTranslationPropsSet" W.writeSignalServiceTranslationPropsSet_SignalServiceTranslationPropsSet writeTable54

def writeTable56 : Bst (WB) :=
 (.node (.node (.node (.node (.node .nil
     k!"setRModeInAtomicSwcInstanceRef_DISABLED_MODE_IREF_RModeInAtomicSwcInstanceRef" W.setRModeInAtomicSwcInstanceRef_DISABLED_MODE_IREF_RModeInAtomicSwcInstanceRef
     .nil)
    k!"setTransmissionModeTiming_TRANSMISSION_MODE_TRUE_TIMING_TransmissionModeTiming" W.setTransmissionModeTiming_TRANSMISSION_MODE_TRUE_TIMING_TransmissionModeTiming
    .nil)
   k!"writeCompositeRuleBasedValueSpecification_CompositeRuleBasedValueSpecification" W.writeCompositeRuleBasedValueSpecification_CompositeRuleBasedValueSpecification
   (.node (.node .nil
     k!"writeRuleBasedValueSpecification_RULE_BASED_VALUES_RuleBasedValueSpecification" W.writeRuleBasedValueSpecification_RULE_BASED_VALUES_RuleBasedValueSpecification
     .nil)
    k!"writeSenderReceiverInterfaceInvalidationPolicies_SenderReceiverInterface_L4673" W.writeSenderReceiverInterfaceInvalidationPolicies_SenderReceiverInterface_L4673
    .nil))
  k!"writeSignalServiceTranslationElementProps_SignalServiceTranslationElementProps" W.writeSignalServiceTranslationElementProps_SignalServiceTranslationElementProps
  (.node (.node (.node .nil
     k!"writeSwcBswSynchronizedModeGroupPrototype_SwcBswSynchronizedModeGroupPrototype" W.writeSwcBswSynchronizedModeGroupPrototype_SwcBswSynchronizedModeGroupPrototype
     .nil)
    k!"writeVariableAndParameterInterfaceMapping_VariableAndParameterInterfaceMapping" W.writeVariableAndParameterInterfaceMapping_VariableAndParameterInterfaceMapping
    .nil)
   k!"setFlexrayFifoConfiguration_FLEXRAY_FIFO_CONFIGURATION_FlexrayFifoConfiguration" W.setFlexrayFifoConfiguration_FLEXRAY_FIFO_CONFIGURATION_FlexrayFifoConfiguration
   (.node .nil
    k!"setSecureCommunicationProps_SECURE_COMMUNICATION_PROPS_SecureCommunicationProps" W.setSecureCommunicationProps_SECURE_COMMUNICATION_PROPS_SecureCommunicationProps
    .nil)))
 k!"setTransmissionModeTiming_TRANSMISSION_MODE_FALSE_TIMING_TransmissionModeTiming" W.setTransmissionModeTiming_TRANSMISSION_MODE_FALSE_TIMING_TransmissionModeTiming
 (.node (.node (.node (.node .nil
     k!"writeBswAsynchronousServerCallReturnsEvent_BswAsynchronousServerCallReturnsEvent" W.writeBswAsynchronousServerCallReturnsEvent_BswAsynchronousServerCallReturnsEvent
     .nil)
    k!"writeUserDefinedTransformationComSpecProps_UserDefinedTransformationComSpecProps" W.writeUserDefinedTransformationComSpecProps_UserDefinedTransformationComSpecProps
    .nil)
   k!"writeApplicationRuleBasedValueSpecification_ApplicationRuleBasedValueSpecification" W.writeApplicationRuleBasedValueSpecification_ApplicationRuleBasedValueSpecification
   (.node (.node .nil
     k!"writeCanControllerConfigurationRequirements_CanControllerConfigurationRequirements" W.writeCanControllerConfigurationRequirements_CanControllerConfigurationRequirements
     .nil)
    k!"writeDoIpRoutingActivationConfirmationNeeds_DoIpRoutingActivationConfirmationNeeds" W.writeDoIpRoutingActivationConfirmationNeeds_DoIpRoutingActivationConfirmationNeeds
    .nil))
  k!"writeSecureCommunicationAuthenticationProps_SecureCommunicationAuthenticationProps" W.writeSecureCommunicationAuthenticationProps_SecureCommunicationAuthenticationProps
  (.node (.node (.node .nil
     k!"setPOperationInAtomicSwcInstanceRef_OPERATION_IREF_POperationInAtomicSwcInstanceRef" W.setPOperationInAtomicSwcInstanceRef_OPERATION_IREF_POperationInAtomicSwcInstanceRef
     .nil)
    k!"setROperationInAtomicSwcInstanceRef_OPERATION_IREF_ROperationInAtomicSwcInstanceRef" W.setROperationInAtomicSwcInstanceRef_OPERATION_IREF_ROperationInAtomicSwcInstanceRef
    .nil)
   k!"writeDoIpRoutingActivationAuthenticationNeeds_DoIpRoutingActivationAuthenticationNeeds" W.writeDoIpRoutingActivationAuthenticationNeeds_DoIpRoutingActivationAuthenticationNeeds
   (.node .nil
    k!"writePTriggerInAtomicSwcTypeInstanceRef_TRIGGER_IREF_PTriggerInAtomicSwcTypeInstanceRef" W.writePTriggerInAtomicSwcTypeInstanceRef_TRIGGER_IREF_PTriggerInAtomicSwcTypeInstanceRef
    .nil))))

def writeTable57 : Bst (WB) :=
 (.node (.node (.node (.node (.node .nil
     k!"setPModeGroupInAtomicSwcInstanceRef_SWC_MODE_GROUP_IREF_PModeGroupInAtomicSwcInstanceRef" W.setPModeGroupInAtomicSwcInstanceRef_SWC_MODE_GROUP_IREF_PModeGroupInAtomicSwcInstanceRef
     .nil)
    k!"setTransmissionModeDeclaration_TRANSMISSION_MODE_DECLARATION_TransmissionModeDeclaration" W.setTransmissionModeDeclaration_TRANSMISSION_MODE_DECLARATION_TransmissionModeDeclaration
    .nil)
   k!"writePTriggerInAtomicSwcTypeInstanceRef_SWC_TRIGGER_IREF_PTriggerInAtomicSwcTypeInstanceRef" W.writePTriggerInAtomicSwcTypeInstanceRef_SWC_TRIGGER_IREF_PTriggerInAtomicSwcTypeInstanceRef
   (.node (.node .nil
     k!"setCanControllerFdConfiguration_CAN_CONTROLLER_FD_CONFIGURATION_CanControllerFdConfiguration" W.setCanControllerFdConfiguration_CAN_CONTROLLER_FD_CONFIGURATION_CanControllerFdConfiguration
     .nil)
    k!"setCanControllerXlConfiguration_CAN_CONTROLLER_XL_CONFIGURATION_CanControllerXlConfiguration" W.setCanControllerXlConfiguration_CAN_CONTROLLER_XL_CONFIGURATION_CanControllerXlConfiguration
    .nil))
  k!"setTransmissionModeDeclaration_TRANSMISSION_MODE_DECLARATION_TransmissionModeDeclaration_L9098" W.setTransmissionModeDeclaration_TRANSMISSION_MODE_DECLARATION_TransmissionModeDeclaration_L9098
  (.node (.node (.node .nil
     k!"setVariableInAtomicSWCTypeInstanceRef_AUTOSAR_VARIABLE_IREF_VariableInAtomicSWCTypeInstanceRef" W.setVariableInAtomicSWCTypeInstanceRef_AUTOSAR_VARIABLE_IREF_VariableInAtomicSWCTypeInstanceRef
     .nil)
    k!"setVariableDataPrototypeInSystemInstanceRef_SENDER_IREF_VariableDataPrototypeInSystemInstanceRef" W.setVariableDataPrototypeInSystemInstanceRef_SENDER_IREF_VariableDataPrototypeInSystemInstanceRef
    .nil)
   k!"setParameterInAtomicSWCTypeInstanceRef_AUTOSAR_PARAMETER_IREF_ParameterInAtomicSWCTypeInstanceRef" W.setParameterInAtomicSWCTypeInstanceRef_AUTOSAR_PARAMETER_IREF_ParameterInAtomicSWCTypeInstanceRef
   (.node .nil
    k!"setVariableDataPrototypeInSystemInstanceRef_RECEIVER_IREF_VariableDataPrototypeInSystemInstanceRef" W.setVariableDataPrototypeInSystemInstanceRef_RECEIVER_IREF_VariableDataPrototypeInSystemInstanceRef
    .nil)))
 k!"setModeInBswModuleDescriptionInstanceRef_DISABLED_IN_MODE_IREF_ModeInBswModuleDescriptionInstanceRef" W.setModeInBswModuleDescriptionInstanceRef_DISABLED_IN_MODE_IREF_ModeInBswModuleDescriptionInstanceRef
 (.node (.node (.node (.node .nil
     k!"writeDataPrototypeInClientServerInterfaceInstanceRef_DataPrototypeInClientServerInterfaceInstanceRef" W.writeDataPrototypeInClientServerInterfaceInstanceRef_DataPrototypeInClientServerInterfaceInstanceRef
     .nil)
    k!"setVariableDataPrototypeInSystemInstanceRef_DATA_ELEMENT_IREF_VariableDataPrototypeInSystemInstanceRef" W.setVariableDataPrototypeInSystemInstanceRef_DATA_ELEMENT_IREF_VariableDataPrototypeInSystemInstanceRef
    .nil)
   k!"setVariableDataPrototypeInSystemInstanceRef_TRANSLATION_TARGET_VariableDataPrototypeInSystemInstanceRef" W.setVariableDataPrototypeInSystemInstanceRef_TRANSLATION_TARGET_VariableDataPrototypeInSystemInstanceRef
   (.node (.node .nil
     k!"writeRunnableEntityInCompositionInstanceRef_RUNNABLE_ENTITY_IREF_RunnableEntityInCompositionInstanceRef" W.writeRunnableEntityInCompositionInstanceRef_RUNNABLE_ENTITY_IREF_RunnableEntityInCompositionInstanceRef
     .nil)
    k!"setCanControllerFdConfigurationRequirements_CAN_CONTROLLER_FD_REQUIREMENTS_CanControllerFdConfigurationRequirements" W.setCanControllerFdConfigurationRequirements_CAN_CONTROLLER_FD_REQUIREMENTS_CanControllerFdConfigurationRequirements
    .nil))
  k!"setCanControllerXlConfigurationRequirements_CAN_CONTROLLER_XL_REQUIREMENTS_CanControllerXlConfigurationRequirements" W.setCanControllerXlConfigurationRequirements_CAN_CONTROLLER_XL_REQUIREMENTS_CanControllerXlConfigurationRequirements
  (.node (.node (.node .nil
     k!"writeVariableDataPrototypeInCompositionInstanceRef_IMPLICIT_DATA_ACCESS_IREF_VariableDataPrototypeInCompositionInstanceRef" W.writeVariableDataPrototypeInCompositionInstanceRef_IMPLICIT_DATA_ACCESS_IREF_VariableDataPrototypeInCompositionInstanceRef
     .nil)
    k!"writeInnerDataPrototypeGroupInCompositionInstanceRef_DATA_PROTOTYPE_GROUP_IREF_InnerDataPrototypeGroupInCompositionInstanceRef" W.writeInnerDataPrototypeGroupInCompositionInstanceRef_DATA_PROTOTYPE_GROUP_IREF_InnerDataPrototypeGroupInCompositionInstanceRef
    .nil)
   k!"setApplicationCompositeElementInPortInterfaceInstanceRef_LEAF_ELEMENT_IREF_ApplicationCompositeElementInPortInterfaceInstanceRef" W.setApplicationCompositeElementInPortInterfaceInstanceRef_LEAF_ELEMENT_IREF_ApplicationCompositeElementInPortInterfaceInstanceRef
   (.node .nil
    k!"writeInnerRunnableEntityGroupInCompositionInstanceRef_RUNNABLE_ENTITY_GROUP_IREF_InnerRunnableEntityGroupInCompositionInstanceRef" W.writeInnerRunnableEntityGroupInCompositionInstanceRef_RUNNABLE_ENTITY_GROUP_IREF_InnerRunnableEntityGroupInCompositionInstanceRef
    .nil))))

def writeTable58 : Bst (WB) :=
 .node writeTable56 k!"setModeInBswModuleDescriptionInstanceRef_MODE_IREF_ModeInBswModuleDescriptionInstanceRef" W.setModeInBswModuleDescriptionInstanceRef_MODE_IREF_ModeInBswModuleDescriptionInstanceRef writeTable57

def writeTable59 : Bst (WB) :=
 .node writeTable55 k!"writeFunctionInhibitionAvailabilityNeeds_FunctionInhibitionAvailabilityNeeds" W.writeFunctionInhibitionAvailabilityNeeds_FunctionInhibitionAvailabilityNeeds writeTable58

def writeTable60 : Bst (WB) :=
 .node writeTable52 k!"writeBswInternalTriggerOccurredEvent_BswInternalTriggerOccurredEvent" W.writeBswInternalTriggerOccurredEvent_BswInternalTriggerOccurredEvent writeTable59

def writeTable61 : Bst (WB) :=
 .node writeTable45 k!"writeCompositionSwComponentType_CompositionSwComponentType" W.writeCompositionSwComponentType_CompositionSwComponentType writeTable60

def writeTable62 : Bst (WB) :=
 .node writeTable30 k!"writeModeDeclarationGroup_ModeDeclarationGroup" W.writeModeDeclarationGroup_ModeDeclarationGroup writeTable61

/-- the writer methods called for an object -/
def writeTable : Bst (WB) := writeTable62

def tagTable00 : Bst (List Key) :=
 (.node (.node (.node (.node (.node .nil
     k!"setSdg_Sdg" [k!"SDG"]
     .nil)
    k!"setTt_TT_Tt" [k!"TT"]
    .nil)
   k!"setNote_Note" [k!"NOTE"]
   (.node (.node .nil
     k!"writeCode_Code" [k!"CODE"]
     .nil)
    k!"writeNPdu_NPdu" [k!"N-PDU"]
    .nil))
  k!"writeUnit_Unit" [k!"UNIT"]
  (.node (.node (.node .nil
     k!"setSdg_Sdg_L717" [k!"SD"]
     .nil)
    k!"setSdg_Sdg_L731" [k!"SDF"]
    .nil)
   k!"writeNmEcu_NmEcu" [k!"NM-ECU"]
   (.node (.node .nil
     k!"writeNmPdu_NmPdu" [k!"NM-PDU"]
     .nil)
    k!"writeTcpTp_TcpTp" [k!"TCP-TP"]
    .nil)))
 k!"writeUdpTp_UdpTp" [k!"UDP-TP"]
 (.node (.node (.node (.node .nil
     k!"setDefItem_DefItem" [k!"DEF-ITEM"]
     .nil)
    k!"setDefList_DefList" [k!"DEF-LIST"]
    .nil)
   k!"writeHwType_HwType" [k!"HW-TYPE"]
   (.node (.node .nil
     k!"writeLinker_Linker" [k!"LINKER"]
     .nil)
    k!"writeSystem_System" [k!"SYSTEM"]
    .nil))
  k!"writeTopic1_Topic1" [k!"TOPIC-1"]
  (.node (.node (.node .nil
     k!"writeDcmIPdu_DcmIPdu" [k!"DCM-I-PDU"]
     .nil)
    k!"writeFlatMap_FlatMap" [k!"FLAT-MAP"]
    .nil)
   k!"writeGateway_Gateway" [k!"GATEWAY"]
   (.node .nil
    k!"writeISignal_ISignal" [k!"I-SIGNAL"]
    .nil))))

def tagTable01 : Bst (List Key) :=
 (.node (.node (.node (.node (.node .nil
     k!"writeMcGroup_McGroup" [k!"MC-GROUP"]
     .nil)
    k!"writeTrigger_Trigger" [k!"TRIGGER"]
    .nil)
   k!"setAdminData_AdminData" [k!"ADMIN-DATA"]
   (.node (.node .nil
     k!"setLLongName_LLongName" [k!"L-4"]
     .nil)
    k!"setLVerbatim_LVerbatim" [k!"L-5"]
    .nil))
  k!"writeCanFrame_CanFrame" [k!"CAN-FRAME"]
  (.node (.node (.node .nil
     k!"writeCanTpEcu_CanTpEcu" [k!"CAN-TP-ECU"]
     .nil)
    k!"writeCompiler_Compiler" [k!"COMPILER"]
    .nil)
   k!"writeIPduPort_IPduPort" [k!"I-PDU-PORT"]
   (.node .nil
    k!"writeNmConfig_NmConfig" [k!"NM-CONFIG"]
    .nil)))
 k!"writeUdpNmEcu_UdpNmEcu" [k!"UDP-NM-ECU"]
 (.node (.node (.node (.node .nil
     k!"setLPlainText_LPlainText" [k!"L-10"]
     .nil)
    k!"setMsrQueryP2_MsrQueryP2" [k!"MSR-QUERY-P2"]
    .nil)
   k!"writeARPackage_ARPackage" [k!"AR-PACKAGE"]
   (.node (.node .nil
     k!"writeCanNmNode_CanNmNode" [k!"CAN-NM-NODE"]
     .nil)
    k!"writeCanTpNode_CanTpNode" [k!"CAN-TP-NODE"]
    .nil))
  k!"writeFramePort_FramePort" [k!"FRAME-PORT"]
  (.node (.node (.node .nil
     k!"writeGenericTp_GenericTp" [k!"GENERIC-TP"]
     .nil)
    k!"writeHwElement_HwElement" [k!"HW-ELEMENT"]
    .nil)
   k!"writeInitEvent_InitEvent" [k!"INIT-EVENT"]
   (.node .nil
    k!"writeLinMaster_LinMaster" [k!"LIN-MASTER"]
    .nil))))

def tagTable02 : Bst (List Key) :=
 .node tagTable00 k!"writeKeyword_Keyword" [k!"KEYWORD"] tagTable01

def tagTable03 : Bst (List Key) :=
 (.node (.node (.node (.node (.node .nil
     k!"writePortGroup_PortGroup" [k!"PORT-GROUP"]
     .nil)
    k!"writeSdgCaption_Sdg_L743" [k!"SDG-CAPTION"]
    .nil)
   k!"writeSwcTiming_SwcTiming" [k!"SWC-TIMING"]
   (.node (.node .nil
     k!"writeTpAddress_TpAddress" [k!"TP-ADDRESS"]
     .nil)
    k!"writeUdpNmNode_UdpNmNode" [k!"UDP-NM-NODE"]
    .nil))
  k!"setCompuScales_CompuScales" [k!"COMPU-SCALES"]
  (.node (.node (.node .nil
     k!"setGraphic_GRAPHIC_Graphic" [k!"GRAPHIC"]
     .nil)
    k!"setLabeledItem_LabeledItem" [k!"LABELED-ITEM"]
    .nil)
   k!"setLabeledList_LabeledList" [k!"LABELED-LIST"]
   (.node .nil
    k!"setListElement_LIST_ARList" [k!"LIST"]
    .nil)))
 k!"setMsrQueryArg_MsrQueryArg" [k!"MSR-QUERY-ARG"]
 (.node (.node (.node (.node .nil
     k!"setPhysConstrs_PhysConstrs" [k!"PHYS-CONSTRS"]
     .nil)
    k!"setSwTextProps_SwTextProps" [k!"SW-TEXT-PROPS"]
    .nil)
   k!"writeCanCluster_CanCluster" [k!"CAN-CLUSTER"]
   (.node (.node .nil
     k!"writeCollection_Collection" [k!"COLLECTION"]
     .nil)
    k!"writeDataConstr_DataConstr" [k!"DATA-CONSTR"]
    .nil))
  k!"writeEcuMapping_ECUMapping" [k!"ECU-MAPPING"]
  (.node (.node (.node .nil
     k!"writeGateway_Gateway_L8186" [k!"I-SIGNAL-MAPPING"]
     .nil)
    k!"writeGateway_Gateway_L8199" [k!"I-PDU-MAPPING"]
    .nil)
   k!"writeHwCategory_HwCategory" [k!"HW-CATEGORY"]
   (.node .nil
    k!"writeHwPinGroup_HwPinGroup" [k!"HW-PIN-GROUP"]
    .nil))))

def tagTable04 : Bst (List Key) :=
 (.node (.node (.node (.node (.node .nil
     k!"writeLinCluster_LinCluster" [k!"LIN-CLUSTER"]
     .nil)
    k!"writeMcFunction_McFunction" [k!"MC-FUNCTION"]
    .nil)
   k!"writeMcGroup_McGroup_L9569" [k!"REF-CALPRM-SET"]
   (.node (.node .nil
     k!"writeMcGroup_McGroup_L9572" [k!"REF-MEASUREMENT-SET"]
     .nil)
    k!"writeMsrQueryP1_MsrQueryP1" [k!"MSR-QUERY-P1"]
    .nil))
  k!"writeStaticPart_StaticPart" [k!"STATIC-PART"]
  (.node (.node (.node .nil
     k!"writeSwBaseType_SwBaseType" [k!"SW-BASE-TYPE"]
     .nil)
    k!"setIndexEntry_IE_IndexEntry" [k!"IE"]
    .nil)
   k!"setIndentSample_IndentSample" [k!"INDENT-SAMPLE"]
   (.node .nil
    k!"setRuntimeError_RuntimeError" [k!"RUNTIME-ERROR"]
    .nil)))
 k!"setSwCalprmAxis_SwCalprmAxis" [k!"SW-CALPRM-AXIS"]
 (.node (.node (.node (.node .nil
     k!"setTpPort_TCP_TP_PORT_TpPort" [k!"TCP-TP-PORT"]
     .nil)
    k!"setTpPort_UDP_TP_PORT_TpPort" [k!"UDP-TP-PORT"]
    .nil)
   k!"writeBswMgrNeeds_BswMgrNeeds" [k!"BSW-MGR-NEEDS"]
   (.node (.node .nil
     k!"writeCanTpConfig_CanTpConfig" [k!"CAN-TP-CONFIG"]
     .nil)
    k!"writeChapter_Chapter_CHAPTER" [k!"CHAPTER"]
    .nil))
  k!"writeCompuMethod_CompuMethod" [k!"COMPU-METHOD"]
  (.node (.node (.node .nil
     k!"writeDocRevision_DocRevision" [k!"DOC-REVISION"]
     .nil)
    k!"writeDynamicPart_DynamicPart" [k!"DYNAMIC-PART"]
    .nil)
   k!"writeEcuInstance_EcuInstance" [k!"ECU-INSTANCE"]
   (.node .nil
    k!"writeISignalIPdu_ISignalIPdu" [k!"I-SIGNAL-I-PDU"]
    .nil))))

def tagTable05 : Bst (List Key) :=
 .node tagTable03 k!"writeKeywordSet_KeywordSet" [k!"KEYWORD-SET"] tagTable04

def tagTable06 : Bst (List Key) :=
 .node tagTable02 k!"writeLinTpNode_LinTpNode" [k!"DROP-NOT-REQUESTED-NAD", k!"LIN-TP-NODE"] tagTable05

def tagTable07 : Bst (List Key) :=
 (.node (.node (.node (.node (.node .nil
     k!"writeIdsMgrNeeds_IdsMgrNeeds" [k!"IDS-MGR-NEEDS"]
     .nil)
    k!"writeJ1939NmNode_J1939NmNode" [k!"J-1939-NM-NODE"]
    .nil)
   k!"writeLinTpConfig_LinTpConfig" [k!"LIN-TP-CONFIG"]
   (.node (.node .nil
     k!"writeSecuredIPdu_SecuredIPdu" [k!"SECURED-I-PDU"]
     .nil)
    k!"writeSwValueCont_SwValueCont" [k!"SW-VALUE-CONT"]
    .nil))
  k!"writeSymbolProps_SymbolProps" [k!"SYMBOL-PROPS"]
  (.node (.node (.node .nil
     k!"writeTimingEvent_TimingEvent" [k!"TIMING-EVENT"]
     .nil)
    k!"setEmphasisText_E_EmphasisText" [k!"E"]
    .nil)
   k!"setMlFormula_FORMULA_MlFormula" [k!"FORMULA"]
   (.node .nil
    k!"setMsrQueryProps_MsrQueryProps" [k!"MSR-QUERY-PROPS"]
    .nil)))
 k!"setStructuredReq_StructuredReq" [k!"STRUCTURED-REQ"]
 (.node (.node (.node (.node .nil
     k!"setSwAxisGeneric_SwAxisGeneric" [k!"SW-AXIS-GENERIC"]
     .nil)
    k!"setSwAxisGrouped_SwAxisGrouped" [k!"SW-AXIS-GROUPED"]
    .nil)
   k!"writeARPackage_ARPackage_L9513" [k!"REFERENCE-BASE"]
   (.node (.node .nil
     k!"writeCanNmCluster_CanNmCluster" [k!"CAN-NM-CLUSTER"]
     .nil)
    k!"writeCanTpAddress_CanTpAddress" [k!"CAN-TP-ADDRESS"]
    .nil))
  k!"writeCanTpChannel_CanTpChannel" [k!"CAN-TP-CHANNEL"]
  (.node (.node (.node .nil
     k!"writeChapterModel_ChapterModel" [k!"CHAPTER-MODEL"]
     .nil)
    k!"writeCouplingPort_CouplingPort" [k!"COUPLING-PORT"]
    .nil)
   k!"writeDltUserNeeds_DltUserNeeds" [k!"DLT-USER-NEEDS"]
   (.node .nil
    k!"writeDoIpTpConfig_DoIpTpConfig" [k!"DO-IP-TP-CONFIG"]
    .nil))))

def tagTable08 : Bst (List Key) :=
 (.node (.node (.node (.node (.node .nil
     k!"writeEventHandler_EventHandler" [k!"EVENT-HANDLER"]
     .nil)
    k!"writeFlexrayFrame_FlexrayFrame" [k!"FLEXRAY-FRAME"]
    .nil)
   k!"writeISignalGroup_ISignalGroup" [k!"I-SIGNAL-GROUP"]
   (.node (.node .nil
     k!"writeModification_Modification" [k!"MODIFICATION"]
     .nil)
    k!"writeNvBlockNeeds_NvBlockNeeds" [k!"NV-BLOCK-NEEDS"]
    .nil))
  k!"writeSwAddrMethod_SwAddrMethod" [k!"SW-ADDR-METHOD"]
  (.node (.node (.node .nil
     k!"writeSystemSignal_SystemSignal" [k!"SYSTEM-SIGNAL"]
     .nil)
    k!"writeTopicContent_TopicContent" [k!"TOPIC-CONTENT"]
    .nil)
   k!"writeUdpNmCluster_UdpNmCluster" [k!"UDP-NM-CLUSTER"]
   (.node .nil
    k!"setDataFilter_FILTER_DataFilter" [k!"FILTER"]
    .nil)))
 k!"writeISignalProps_ISignal_L8229" [k!"I-SIGNAL-PROPS"]
 (.node (.node (.node (.node .nil
     k!"setTransientFault_TransientFault" [k!"TRANSIENT-FAULT"]
     .nil)
    k!"writeChapter_Chapter_SW_CARB_DOC" [k!"SW-CARB-DOC"]
    .nil)
   k!"writeClientComSpec_ClientComSpec" [k!"CLIENT-COM-SPEC"]
   (.node (.node .nil
     k!"writeDocumentation_Documentation" [k!"DOCUMENTATION"]
     .nil)
    k!"writeEcucModuleDef_EcucModuleDef" [k!"ECUC-MODULE-DEF"]
    .nil))
  k!"writeLifeCycleInfo_LifeCycleInfo" [k!"LIFE-CYCLE-INFO"]
  (.node (.node (.node .nil
     k!"writeMcFunction_McFunction_L9525" [k!"DEF-CALPRM-SET"]
     .nil)
    k!"writeMcFunction_McFunction_L9528" [k!"REF-CALPRM-SET"]
    .nil)
   k!"writeMcFunction_McFunction_L9531" [k!"IN-MEASUREMENT-SET"]
   (.node .nil
    k!"writeMcFunction_McFunction_L9534" [k!"LOC-MEASUREMENT-SET"]
    .nil))))

def tagTable09 : Bst (List Key) :=
 .node tagTable07 k!"writeEcucQuery_EcucQuery_L7115" [k!"ECUC-QUERY-EXPRESSION"] tagTable08

def tagTable10 : Bst (List Key) :=
 (.node (.node (.node (.node (.node .nil
     k!"writeMcSupportData_McSupportData" [k!"MC-SUPPORT"]
     .nil)
    k!"writePduTriggering_PduTriggering" [k!"PDU-TRIGGERING"]
    .nil)
   k!"writeRuleArguments_RuleArguments" [k!"RULE-ARGUMENTS"]
   (.node (.node .nil
     k!"writeServerComSpec_ServerComSpec" [k!"SERVER-COM-SPEC"]
     .nil)
    k!"writeSocketAddress_SocketAddress" [k!"SOCKET-ADDRESS"]
    .nil))
  k!"writeSwSystemconst_SwSystemconst" [k!"SW-SYSTEMCONST"]
  (.node (.node (.node .nil
     k!"writeSwcBswMapping_SwcBswMapping" [k!"SWC-BSW-MAPPING"]
     .nil)
    k!"writeSystemMapping_SystemMapping" [k!"SYSTEM-MAPPING"]
    .nil)
   k!"writeChapter_Chapter_SW_TEST_DESC" [k!"SW-TEST-DESC"]
   (.node .nil
    k!"writeIdentifiable_ARPackage_L2019" [k!"ANNOTATION"]
    .nil)))
 k!"setCaption_FORMULA_CAPTION_Caption" [k!"FORMULA-CAPTION"]
 (.node (.node (.node (.node .nil
     k!"setInternalConstrs_InternalConstrs" [k!"INTERNAL-CONSTRS"]
     .nil)
    k!"setModeDeclaration_ModeDeclaration" [k!"MODE-DECLARATION"]
    .nil)
   k!"setSoftwareContext_SoftwareContext" [k!"SOFTWARE-CONTEXT"]
   (.node (.node .nil
     k!"setSwcToEcuMapping_SwcToEcuMapping" [k!"SWC-TO-ECU-MAPPING"]
     .nil)
    k!"writeBswModuleEntry_BswModuleEntry" [k!"BSW-MODULE-ENTRY"]
    .nil))
  k!"writeBswTimingEvent_BswTimingEvent" [k!"BSW-TIMING-EVENT"]
  (.node (.node (.node .nil
     k!"writeChapterContent_ChapterContent" [k!"CHAPTER-CONTENT"]
     .nil)
    k!"writeFlexrayCluster_FlexrayCluster" [k!"FLEXRAY-CLUSTER"]
    .nil)
   k!"writeHwAttributeDef_HwAttributeDef" [k!"HW-ATTRIBUTE-DEF"]
   (.node .nil
    k!"writeHwPinConnector_HwPinConnector" [k!"HW-PIN-CONNECTION"]
    .nil))))

def tagTable11 : Bst (List Key) :=
 (.node (.node (.node (.node (.node .nil
     k!"writeMsrQueryTopic1_MsrQueryTopic1" [k!"MSR-QUERY-TOPIC-1"]
     .nil)
    k!"writePPortPrototype_PPortPrototype" [k!"P-PORT-PROTOTYPE"]
    .nil)
   k!"writeRPortPrototype_RPortPrototype" [k!"R-PORT-PROTOTYPE"]
   (.node (.node .nil
     k!"writeRptSupportData_RptSupportData" [k!"RPT-SUPPORT-DATA"]
     .nil)
    k!"writeRunnableEntity_RunnableEntity" [k!"RUNNABLE-ENTITY"]
    .nil))
  k!"writeSwRecordLayout_SwRecordLayout" [k!"SW-RECORD-LAYOUT"]
  (.node (.node (.node .nil
     k!"writeUserDefinedPdu_UserDefinedPdu" [k!"USER-DEFINED-PDU"]
     .nil)
    k!"writeVariableAccess_VariableAccess" [k!"VARIABLE-ACCESS"]
    .nil)
   k!"writeVariationPoint_VariationPoint" [k!"VARIATION-POINT"]
   (.node .nil
    k!"writeVlanMembership_VlanMembership" [k!"VLAN-MEMBERSHIP"]
    .nil)))
 k!"setSwValues_SW_VALUES_PHYS_SwValues" [k!"SW-VALUES-PHYS"]
 (.node (.node (.node (.node .nil
     k!"setValueList_SW_ARRAYSIZE_ValueList" [k!"SW-ARRAYSIZE"]
     .nil)
    k!"writeChapter_Chapter_SW_FEATURE_DEF" [k!"SW-FEATURE-DEF"]
    .nil)
   k!"writePduToFrameMappings_Frame_L5750" [k!"PDU-TO-FRAME-MAPPING"]
   (.node (.node .nil
     k!"setDataFilter_DATA_FILTER_DataFilter" [k!"DATA-FILTER"]
     .nil)
    k!"setDevelopmentError_DevelopmentError" [k!"DEVELOPMENT-ERROR"]
    .nil))
  k!"setMlFormula_FORMULA_MlFormula_L1893" [k!"L-GRAPHIC"]
  (.node (.node (.node .nil
     k!"setSocketConnection_SocketConnection" [k!"SOCKET-CONNECTION"]
     .nil)
    k!"setSwAxisIndividual_SwAxisIndividual" [k!"SW-AXIS-INDIVIDUAL"]
    .nil)
   k!"setSwDataDependency_SwDataDependency" [k!"SW-DATA-DEPENDENCY"]
   (.node .nil
    k!"setSwHostVariable_SwVariableRefProxy" [k!"SW-HOST-VARIABLE"]
    .nil))))

def tagTable12 : Bst (List Key) :=
 .node tagTable10 k!"writeISignalIPdu_ISignalIPdu_L9135" [k!"I-PDU-TIMING"] tagTable11

def tagTable13 : Bst (List Key) :=
 .node tagTable09 k!"writeMcFunction_McFunction_L9537" [k!"OUT-MEASUREMENT-SET"] tagTable12

def tagTable14 : Bst (List Key) :=
 .node tagTable06 k!"writeISignalPort_ISignalPort" [k!"I-SIGNAL-PORT"] tagTable13

def tagTable15 : Bst (List Key) :=
 (.node (.node (.node (.node (.node .nil
     k!"setTraceableText_TRACE_TraceableText" [k!"TRACE"]
     .nil)
    k!"writeBackgroundEvent_BackgroundEvent" [k!"BACKGROUND-EVENT"]
    .nil)
   k!"writeBswCalledEntity_BswCalledEntity" [k!"BSW-CALLED-ENTITY"]
   (.node (.node .nil
     k!"writeCanTpConnection_CanTpConnection" [k!"CAN-TP-CONNECTION"]
     .nil)
    k!"writeChapter_Chapter_SW_FEATURE_DESC" [k!"SW-FEATURE-DESC"]
    .nil))
  k!"writeComMgrUserNeeds_ComMgrUserNeeds" [k!"COM-MGR-USER-NEEDS"]
  (.node (.node (.node .nil
     k!"writeCycleRepetition_CycleRepetition" [k!"CYCLE-REPETITION"]
     .nil)
    k!"writeEthernetCluster_EthernetCluster" [k!"ETHERNET-CLUSTER"]
    .nil)
   k!"writeLinTpConnection_LinTpConnection" [k!"LIN-TP-CONNECTION"]
   (.node (.node .nil
     k!"writeModeAccessPoint_ModeAccessPoint" [k!"MODE-ACCESS-POINT"]
     .nil)
    k!"writeModeSwitchPoint_ModeSwitchPoint" [k!"MODE-SWITCH-POINT"]
    .nil)))
 k!"writeMsrQueryChapter_MsrQueryChapter" [k!"MSR-QUERY-CHAPTER"]
 (.node (.node (.node (.node .nil
     k!"writeMultiplexedIPdu_MultiplexedIPdu" [k!"MULTIPLEXED-I-PDU"]
     .nil)
    k!"writeNetworkEndPoint_NetworkEndpoint" [k!"NETWORK-ENDPOINT"]
    .nil)
   k!"writeNvDataInterface_NvDataInterface" [k!"NV-DATA-INTERFACE"]
   (.node (.node .nil
     k!"writePRPortPrototype_PRPortPrototype" [k!"PR-PORT-PROTOTYPE"]
     .nil)
    k!"writeParameterAccess_ParameterAccess" [k!"PARAMETER-ACCESS"]
    .nil))
  k!"writeRptComponent_RptComponent_L4455" [k!"ROLE-BASED-MC-DATA-ASSIGNMENT"]
  (.node (.node (.node .nil
     k!"writeRptComponent_RptComponent_L4457" [k!"RP-IMPL-POLICY"]
     .nil)
    k!"writeRptComponent_RptComponent_L4462" [k!"RPT-EXECUTABLE-ENTITY"]
    .nil)
   k!"writeSegmentPosition_SegmentPosition" [k!"SEGMENT-POSITION"]
   (.node .nil
    k!"writeTpConnection_TpConnection_L6067" [k!"IDENT"]
    .nil))))

def tagTable16 : Bst (List Key) :=
 (.node (.node (.node (.node (.node .nil
     k!"setCompu_COMPU_INTERNAL_TO_PHYS_Compu" [k!"COMPU-INTERNAL-TO-PHYS"]
     .nil)
    k!"setCompu_COMPU_PHYS_TO_INTERNAL_Compu" [k!"COMPU-PHYS-TO-INTERNAL"]
    .nil)
   k!"setDoIpEntity_DO_IP_ENTITY_DoIpEntity" [k!"DO-IP-ENTITY"]
   (.node (.node .nil
     k!"writeDataConstrRules_DataConstr_L2519" [k!"DATA-CONSTR-RULE"]
     .nil)
    k!"setConstantReference_ConstantReference" [k!"CONSTANT-REFERENCE"]
    .nil))
  k!"setIpv6Configuration_Ipv6Configuration" [k!"IPV-6-CONFIGURATION"]
  (.node (.node (.node .nil
     k!"setShortNameFragment_ShortNameFragment" [k!"SHORT-NAME-FRAGMENT"]
     .nil)
    k!"setSubElementMapping_SubElementMapping" [k!"SUB-ELEMENT-MAPPING"]
    .nil)
   k!"writeApplicationError_ApplicationError" [k!"APPLICATION-ERROR"]
   (.node .nil
    k!"writeCompuScale_COMPU_SCALE_CompuScale" [k!"COMPU-SCALE"]
    .nil)))
 k!"writeConsistencyNeeds_ConsistencyNeeds" [k!"CONSISTENCY-NEEDS"]
 (.node (.node (.node (.node .nil
     k!"writeCouplingPortFifo_CouplingPortFifo" [k!"COUPLING-PORT-FIFO"]
     .nil)
    k!"writeDoIpLogicAddress_DoIpLogicAddress" [k!"DO-IP-LOGIC-ADDRESS"]
    .nil)
   k!"writeDoIpTpConnection_DoIpTpConnection" [k!"DO-IP-TP-CONNECTION"]
   (.node (.node .nil
     k!"writeDocumentation_Documentation_L1598" [k!"DOCUMENTATION-CONTEXT"]
     .nil)
    k!"writeDocumentation_Documentation_L1602" [k!"DOCUMENTATION-CONTENT"]
    .nil))
  k!"writeEcucReferenceDef_EcucReferenceDef" [k!"ECUC-REFERENCE-DEF"]
  (.node (.node (.node .nil
     k!"writeErrorTracerNeeds_ErrorTracerNeeds" [k!"ERROR-TRACER-NEEDS"]
     .nil)
    k!"writeHwAttributeValue_HwAttributeValue" [k!"HW-ATTRIBUTE-VALUE"]
    .nil)
   k!"writeISignalIPduGroup_ISignalIPduGroup" [k!"I-SIGNAL-I-PDU-GROUP"]
   (.node .nil
    k!"writeLifeCycleInfoSet_LifeCycleInfoSet" [k!"LIFE-CYCLE-INFO-SET"]
    .nil))))

def tagTable17 : Bst (List Key) :=
 .node tagTable15 k!"writeUserDefinedIPdu_UserDefinedIPdu" [k!"USER-DEFINED-I-PDU"] tagTable16

def tagTable18 : Bst (List Key) :=
 (.node (.node (.node (.node (.node .nil
     k!"writeMcSupportData_McSupportData_L4280" [k!"MC-SW-EMULATION-METHOD-SUPPORT"]
     .nil)
    k!"writeMcSupportData_McSupportData_L4285" [k!"MC-DATA-INSTANCE"]
    .nil)
   k!"writeNvProvideComSpec_NvProvideComSpec" [k!"NV-PROVIDE-COM-SPEC"]
   (.node (.node .nil
     k!"writeNvRequireComSpec_NvRequireComSpec" [k!"NV-REQUIRE-COM-SPEC"]
     .nil)
    k!"writeSoAdRoutingGroup_SoAdRoutingGroup" [k!"SO-AD-ROUTING-GROUP"]
    .nil))
  k!"writeSwcToImplMapping_SwcToImplMapping" [k!"SWC-TO-IMPL-MAPPING"]
  (.node (.node (.node .nil
     k!"writeTriggerInterface_TriggerInterface" []
     .nil)
    k!"setMlFormula_INFORMAL_FORMULA_MlFormula" [k!"INFORMAL-FORMULA"]
    .nil)
   k!"setScaleConstr_SCALE_CONSTR_ScaleConstr" [k!"SCALE-CONSTR"]
   (.node .nil
    k!"writeSoAdConfig_SO_AD_CONFIG_SoAdConfig" [k!"SO-AD-CONFIG"]
    .nil)))
 k!"setBswInterruptEntity_BswInterruptEntity" [k!"BSW-INTERRUPT-ENTITY"]
 (.node (.node (.node (.node .nil
     k!"setEcucReferenceValue_EcucReferenceValue" [k!"ECUC-REFERENCE-VALUE"]
     .nil)
    k!"setLOverviewParagraph_LOverviewParagraph" [k!"L-2"]
    .nil)
   k!"setMeasuredStackUsage_MeasuredStackUsage" [k!"MEASURED-STACK-USAGE"]
   (.node (.node .nil
     k!"setSwGenericAxisParam_SwGenericAxisParam" [k!"SW-GENERIC-AXIS-PARAM"]
     .nil)
    k!"setSwServiceArg_RETURN_TYPE_SwServiceArg" [k!"RETURN-TYPE"]
    .nil))
  k!"writeBswImplementation_BswImplementation" [k!"BSW-IMPLEMENTATION"]
  (.node (.node (.node .nil
     k!"writeBswVariableAccess_BswVariableAccess" [k!"BSW-VARIABLE-ACCESS"]
     .nil)
    k!"writeCompuScaleContents_CompuScale_L2265" [k!"COMPU-RATIONAL-COEFFS"]
    .nil)
   k!"writeDataReceivedEvent_DataReceivedEvent" [k!"DATA-RECEIVED-EVENT"]
   (.node .nil
    k!"writeEcucContainValue_EcucContainerValue" [k!"ECUC-CONTAINER-VALUE"]
    .nil))))

def tagTable19 : Bst (List Key) :=
 (.node (.node (.node (.node (.node .nil
     k!"writeGeneralPurposePdu_GeneralPurposePdu" [k!"GENERAL-PURPOSE-PDU"]
     .nil)
    k!"writeISignalTriggering_ISignalTriggering" [k!"I-SIGNAL-TRIGGERING"]
    .nil)
   k!"writeMacMulticastGroup_MacMulticastGroup" [k!"MAC-MULTICAST-GROUP"]
   (.node (.node .nil
     k!"writeMcDataInstance_McDataInstance_L4345" [k!"INSTANCE-IN-MEMORY"]
     .nil)
    k!"writeMcDataInstance_McDataInstance_L4349" [k!"MC-DATA-ACCESS-DETAILS"]
    .nil))
  k!"writeMcDataInstance_McDataInstance_L4356" [k!"RESULTING-PROPERTIES"]
  (.node (.node (.node .nil
     k!"writeMcDataInstance_McDataInstance_L4358" [k!"RESULTING-RPT-SW-PROTOTYPING-ACCESS"]
     .nil)
    k!"writeMcDataInstance_McDataInstance_L4361" [k!"RPT-IMPL-POLICY"]
    .nil)
   k!"writeMeasuredHeapUsage_MeasuredHeapUsage" [k!"MEASURED-HEAP-USAGE"]
   (.node .nil
    k!"writeNumericalOrText_VTF_NumericalOrText" [k!"VTF"]
    .nil)))
 k!"writeNvBlockDescriptor_NvBlockDescriptor" [k!"NV-BLOCK-DESCRIPTOR"]
 (.node (.node (.node (.node .nil
     k!"writePhysicalDimension_PhysicalDimension" [k!"PHYSICAL-DIMENSION"]
     .nil)
    k!"writePredefinedVariant_PredefinedVariant" [k!"PREDEFINED-VARIANT"]
    .nil)
   k!"writeRptSupportData_RptSupportData_L4470" [k!"RPT-EXECUTION-CONTEXT"]
   (.node (.node .nil
     k!"writeRptSupportData_RptSupportData_L4475" [k!"RPT-COMPONENT"]
     .nil)
    k!"writeRptSupportData_RptSupportData_L4480" [k!"RPT-SERVICE-POINT"]
    .nil))
  k!"writeRuleBasedAxisCont_RuleBasedAxisCont" [k!"RULE-BASED-AXIS-CONT"]
  (.node (.node (.node .nil
     k!"writeSwcImplementation_SwcImplementation" [k!"SWC-IMPLEMENTATION"]
     .nil)
    k!"writeSystemSignalGroup_SystemSignalGroup" [k!"SYSTEM-SIGNAL-GROUP"]
    .nil)
   k!"writeChapter_Chapter_SW_CALIBRATION_NOTES" [k!"SW-CALIBRATION-NOTES"]
   (.node .nil
    k!"writeChapter_Chapter_SW_DIAGNOSTICS_NOTES" [k!"SW-DIAGNOSTICS-NOTES"]
    .nil))))

def tagTable20 : Bst (List Key) :=
 .node tagTable18 k!"writeEcucFloatParamDef_EcucFloatParamDef" [k!"ECUC-FLOAT-PARAM-DEF"] tagTable19

def tagTable21 : Bst (List Key) :=
 .node tagTable17 k!"writeLinScheduleTable_LinScheduleTable" [k!"LIN-SCHEDULE-TABLE"] tagTable20

def tagTable22 : Bst (List Key) :=
 (.node (.node (.node (.node (.node .nil
     k!"setBswModeSenderPolicy_BswModeSenderPolicy" [k!"BSW-MODE-SENDER-POLICY"]
     .nil)
    k!"setCyclicTiming_CYCLIC_TIMING_CyclicTiming" [k!"CYCLIC-TIMING"]
    .nil)
   k!"setResourceConsumption_ResourceConsumption" [k!"RESOURCE-CONSUMPTION"]
   (.node (.node .nil
     k!"setSwBitRepresentation_SwBitRepresentation" [k!"SW-BIT-REPRESENTATION"]
     .nil)
    k!"setSwDataDependency_SwDataDependency_L2169" [k!"SW-DATA-DEPENDENCY-FORMULA"]
    .nil))
  k!"setSwDataDependency_SwDataDependency_L2175" [k!"SW-DATA-DEPENDENCY-ARGS"]
  (.node (.node (.node .nil
     k!"setTimeRangeType_TIME_OFFSET_TimeRangeType" [k!"TIME-OFFSET"]
     .nil)
    k!"setTimeRangeType_TIME_PERIOD_TimeRangeType" [k!"TIME-PERIOD"]
    .nil)
   k!"setWorstCaseStackUsage_WorstCaseStackUsage" [k!"WORST-CASE-STACK-USAGE"]
   (.node .nil
    k!"writeBlueprintGenerator_BlueprintGenerator" [k!"FORMAL-BLUEPRINT-GENERATOR"]
    .nil)))
 k!"writeBswBackgroundEvent_BswBackgroundEvent" [k!"BSW-BACKGROUND-EVENT"]
 (.node (.node (.node (.node .nil
     k!"writeBswModeSwitchEvent_BswModeSwitchEvent" [k!"BSW-MODE-SWITCH-EVENT"]
     .nil)
    k!"writeCanFrameTriggering_CanFrameTriggering" [k!"CAN-FRAME-TRIGGERING"]
    .nil)
   k!"writeCanPhysicalChannel_CanPhysicalChannel" [k!"CAN-PHYSICAL-CHANNEL"]
   (.node (.node .nil
     k!"writeConditionByFormula_ConditionByFormula" [k!"SW-SYSCOND"]
     .nil)
    k!"writeConsumedEventGroup_ConsumedEventGroup" [k!"CONSUMED-EVENT-GROUP"]
    .nil))
  k!"writeContainedIPduProps_ContainedIPduProps" [k!"CONTAINED-I-PDU-PROPS"]
  (.node (.node (.node .nil
     k!"writeCryptoServiceNeeds_CryptoServiceNeeds" [k!"CRYPTO-SERVICE-NEEDS"]
     .nil)
    k!"writeDataPrototypeGroup_DataPrototypeGroup" [k!"DATA-PROTOTYPE-GROUP"]
    .nil)
   k!"writeDataTransformation_DataTransformation" [k!"DATA-TRANSFORMATION"]
   (.node .nil
    k!"writeDataTypeMappingSet_DataTypeMappingSet" [k!"DATA-TYPE-MAPPING-SET"]
    .nil))))

def tagTable23 : Bst (List Key) :=
 (.node (.node (.node (.node (.node .nil
     k!"writeEcucStringParamDef_EcucStringParamDef" [k!"ECUC-STRING-PARAM-DEF"]
     .nil)
    k!"writeEndToEndProtection_EndToEndProtection" [k!"END-TO-END-PROTECTION"]
    .nil)
   k!"writeExclusiveAreas_InternalBehavior_L2671" [k!"EXCLUSIVE-AREA"]
   (.node (.node .nil
     k!"writeGeneralPurposeIPdu_GeneralPurposeIPdu" [k!"GENERAL-PURPOSE-I-PDU"]
     .nil)
    k!"writeHwElementConnector_HwElementConnector" [k!"HW-ELEMENT-CONNECTOR"]
    .nil))
  k!"writeLinFrameTriggering_LinFrameTriggering" [k!"LIN-FRAME-TRIGGERING"]
  (.node (.node (.node .nil
     k!"writeLinPhysicalChannel_LinPhysicalChannel" [k!"LIN-PHYSICAL-CHANNEL"]
     .nil)
    k!"writeModePortAnnotation_ModePortAnnotation" [k!"MODE-PORT-ANNOTATION"]
    .nil)
   k!"writeNvBlockDataMapping_NvBlockDataMapping" [k!"NV-BLOCK-DATA-MAPPING"]
   (.node .nil
    k!"writeObdPidServiceNeeds_ObdPidServiceNeeds" [k!"OBD-PID-SERVICE-NEEDS"]
    .nil)))
 k!"writeParameterInterface_ParameterInterface" [k!"PARAMETER-INTERFACE"]
 (.node (.node (.node (.node .nil
     k!"writeReceiverComSpec_ReceiverComSpec_L1160" [k!"END-TO-END-TRANSFORMATION-COM-SPEC-PROPS"]
     .nil)
    k!"writeRuleBasedValueCont_RuleBasedValueCont" [k!"SW-VALUE-CONT"]
    .nil)
   k!"writeSwSystemconstValue_SwSystemconstValue" [k!"SW-SYSTEMCONST-VALUE"]
   (.node (.node .nil
     k!"writeSwcModeSwitchEvent_SwcModeSwitchEvent" [k!"SWC-MODE-SWITCH-EVENT"]
     .nil)
    k!"writeWorstCaseHeapUsage_WorstCaseHeapUsage" [k!"WORST-CASE-HEAP-USAGE"]
    .nil))
  k!"setAnyInstanceRef_VALUE_IREF_AnyInstanceRef" [k!"VALUE-IREF"]
  (.node (.node (.node .nil
     k!"setSwServiceArg_SW_SERVICE_ARG_SwServiceArg" [k!"SW-SERVICE-ARG"]
     .nil)
    k!"setTargetIPduRef_TARGET_I_PDU_TargetIPduRef" [k!"TARGET-I-PDU"]
    .nil)
   k!"writeISignalToPduMappings_ISignalIPdu_L9078" [k!"I-SIGNAL-TO-I-PDU-MAPPING"]
   (.node .nil
    k!"setCompuConst_COMPU_DEFAULT_VALUE_CompuConst" [k!"COMPU-DEFAULT-VALUE"]
    .nil))))

def tagTable24 : Bst (List Key) :=
 .node tagTable22 k!"writeDataTypeMaps_DataTypeMappingSet_L5622" [k!"DATA-TYPE-MAP"] tagTable23

def tagTable25 : Bst (List Key) :=
 (.node (.node (.node (.node (.node .nil
     k!"setMultiLongName_LABEL_MultilanguageLongName" [k!"LABEL"]
     .nil)
    k!"setSubElementMapping_SubElementMapping_L8093" [k!"APPLICATION-COMPOSITE-ELEMENT-IREF"]
    .nil)
   k!"writeAssemblySwConnector_AssemblySwConnector" [k!"ASSEMBLY-SW-CONNECTOR"]
   (.node (.node .nil
     k!"writeBswInternalBehavior_BswInternalBehavior" [k!"BSW-INTERNAL-BEHAVIOR"]
     .nil)
    k!"writeEcuInstanceConnectors_EcuInstance_L7778" [k!"CAN-COMMUNICATION-CONNECTOR"]
    .nil))
  k!"writeEcuInstanceConnectors_EcuInstance_L7781" [k!"ETHERNET-COMMUNICATION-CONNECTOR"]
  (.node (.node (.node .nil
     k!"writeEcuInstanceConnectors_EcuInstance_L7784" [k!"LIN-COMMUNICATION-CONNECTOR"]
     .nil)
    k!"writeEcuInstanceConnectors_EcuInstance_L7787" [k!"FLEXRAY-COMMUNICATION-CONNECTOR"]
    .nil)
   k!"writeEcucBooleanParamDef_EcucBooleanParamDef" [k!"ECUC-BOOLEAN-PARAM-DEF"]
   (.node .nil
    k!"writeEcucContainerDef_EcucContainerDef_L7230" [k!"DESTINATION-URI-REF"]
    .nil)))
 k!"writeEcucFunctionNameDef_EcucFunctionNameDef" [k!"ECUC-FUNCTION-NAME-DEF"]
 (.node (.node (.node (.node .nil
     k!"writeEcucIntegerParamDef_EcucIntegerParamDef" [k!"ECUC-INTEGER-PARAM-DEF"]
     .nil)
    k!"writeHwPinGroupConnector_HwPinGroupConnector" [k!"HW-PIN-GROUP-CONNECTION"]
    .nil)
   k!"writeModeSwitchInterface_ModeSwitchInterface" [k!"MODE-SWITCH-INTERFACE"]
   (.node (.node .nil
     k!"writeObdInfoServiceNeeds_ObdInfoServiceNeeds" [k!"OBD-INFO-SERVICE-NEEDS"]
     .nil)
    k!"writeQueuedSenderComSpec_QueuedSenderComSpec" [k!"QUEUED-SENDER-COM-SPEC"]
    .nil))
  k!"writeRootSwCompositionPrototype_System_L8007" [k!"ROOT-SW-COMPOSITION-PROTOTYPE"]
  (.node (.node (.node .nil
     k!"writeRunnableEntityGroup_RunnableEntityGroup" [k!"RUNNABLE-ENTITY-GROUP"]
     .nil)
    k!"writeSwcInternalBehavior_SwcInternalBehavior" [k!"SWC-INTERNAL-BEHAVIOR"]
    .nil)
   k!"writeVariationPointProxy_VariationPointProxy" [k!"VARIATION-POINT-PROXY"]
   (.node .nil
    k!"setAnyInstanceRef_FEATURE_IREF_AnyInstanceRef" [k!"FEATURE-IREF"]
    .nil))))

def tagTable26 : Bst (List Key) :=
 (.node (.node (.node (.node (.node .nil
     k!"writeLParagraphs_MultiLanguageParagraph_L1805" [k!"L-1"]
     .nil)
    k!"writeMemorySections_ResourceConsumption_L4051" [k!"MEMORY-SECTION"]
    .nil)
   k!"setEcucTextualParamValue_EcucTextualParamValue" [k!"ECUC-TEXTUAL-PARAM-VALUE"]
   (.node (.node .nil
     k!"setHardwareConfiguration_HardwareConfiguration" [k!"HARDWARE-CONFIGURATION"]
     .nil)
    k!"setPossibleErrorReaction_PossibleErrorReaction" [k!"POSSIBLE-ERROR-REACTION"]
    .nil))
  k!"setSwcBswRunnableMapping_SwcBswRunnableMapping" [k!"SWC-BSW-RUNNABLE-MAPPING"]
  (.node (.node (.node .nil
     k!"writeBswDataReceivedEvent_BswDataReceivedEvent" [k!"BSW-DATA-RECEIVED-EVENT"]
     .nil)
    k!"writeBswModuleDescription_BswModuleDescription" [k!"BSW-MODULE-DESCRIPTION"]
    .nil)
   k!"writeBswSchedulableEntity_BswSchedulableEntity" [k!"BSW-SCHEDULABLE-ENTITY"]
   (.node .nil
    k!"writeBswServiceDependency_BswServiceDependency" [k!"BSW-SERVICE-DEPENDENCY"]
    .nil)))
 k!"writeBulkNvDataDescriptor_BulkNvDataDescriptor" [k!"BULK-NV-DATA-DESCRIPTOR"]
 (.node (.node (.node (.node .nil
     k!"writeCanNmClusterCoupling_CanNmClusterCoupling" [k!"CAN-NM-CLUSTER-COUPLING"]
     .nil)
    k!"writeDependencyOnArtifact_DependencyOnArtifact" [k!"DEPENDENCY-ON-ARTIFACT"]
    .nil)
   k!"writeDiagnosticConnection_DiagnosticConnection" [k!"DIAGNOSTIC-CONNECTION"]
   (.node (.node .nil
     k!"writeDiagnosticEventNeeds_DiagnosticEventNeeds" [k!"DIAGNOSTIC-EVENT-NEEDS"]
     .nil)
    k!"writeDiagnosticValueNeeds_DiagnosticValueNeeds" [k!"DIAGNOSTIC-VALUE-NEEDS"]
    .nil))
  k!"writeDocumentationBlock_DEF_DocumentationBlock" [k!"DEF"]
  (.node (.node (.node .nil
     k!"writeEcuStateMgrUserNeeds_EcuStateMgrUserNeeds" [k!"ECU-STATE-MGR-USER-NEEDS"]
     .nil)
    k!"writeExecutionTime_AnalyzedExecutionTime_L4097" [k!"MEMORY-SECTION-LOCATION"]
    .nil)
   k!"writeGenericEthernetFrame_GenericEthernetFrame" [k!"ETHERNET-FRAME"]
   (.node .nil
    k!"writeIndicatorStatusNeeds_IndicatorStatusNeeds" [k!"INDICATOR-STATUS-NEEDS"]
    .nil))))

def tagTable27 : Bst (List Key) :=
 .node tagTable25 k!"writeActivationReasons_ExecutableEntity_L4725" [k!"EXECUTABLE-ENTITY-ACTIVATION-REASON"] tagTable26

def tagTable28 : Bst (List Key) :=
 .node tagTable24 k!"setDataPrototypeMapping_DataPrototypeMapping" [k!"DATA-PROTOTYPE-MAPPING"] tagTable27

def tagTable29 : Bst (List Key) :=
 .node tagTable21 k!"writeChapter_Chapter_SW_MAINTENANCE_NOTES" [k!"SW-MAINTENANCE-NOTES"] tagTable28

def tagTable30 : Bst (List Key) :=
 .node tagTable14 k!"setTextTableMapping_TextTableMapping" [k!"TEXT-TABLE-MAPPING"] tagTable29

def tagTable31 : Bst (List Key) :=
 (.node (.node (.node (.node (.node .nil
     k!"writeModeInterfaceMapping_ModeInterfaceMapping" [k!"MODE-INTERFACE-MAPPING"]
     .nil)
    k!"writeModeSwitchedAckEvent_ModeSwitchedAckEvent" [k!"MODE-SWITCHED-ACK-EVENT"]
    .nil)
   k!"writeNvBlockDescriptor_NvBlockDescriptor_L2773" [k!"INSTANTIATION-DATA-DEF-PROPS"]
   (.node (.node .nil
     k!"writeNvBlockDescriptor_NvBlockDescriptor_L2797" [k!"RAM-BLOCK"]
     .nil)
    k!"writeNvBlockDescriptor_NvBlockDescriptor_L2801" [k!"ROM-BLOCK"]
    .nil))
  k!"writeNvDataPortAnnotation_NvDataPortAnnotation" [k!"NV-DATA-PORT-ANNOTATION"]
  (.node (.node (.node .nil
     k!"writeObdRatioServiceNeeds_ObdRatioServiceNeeds" [k!"OBD-RATIO-SERVICE-NEEDS"]
     .nil)
    k!"writeSwComponentPrototype_SwComponentPrototype" [k!"SW-COMPONENT-PROTOTYPE"]
    .nil)
   k!"writeSwcServiceDependency_SwcServiceDependency" [k!"SWC-SERVICE-DEPENDENCY"]
   (.node (.node .nil
     k!"writeSymbolicNameProps_ServiceDependency_L3354" [k!"SYMBOLIC-NAME-PROPS"]
     .nil)
    k!"writeUdpNmClusterCoupling_UdpNmClusterCoupling" [k!"UDP-NM-CLUSTER-COUPLING"]
    .nil)))
 k!"setLifeCyclePeriod_PERIOD_BEGIN_LifeCyclePeriod" [k!"PERIOD-BEGIN"]
 (.node (.node (.node (.node .nil
     k!"setSwDataDefProps_PHYSICAL_PROPS_SwDataDefProps" [k!"PHYSICAL-PROPS"]
     .nil)
    k!"writeDocumentationBlock_ITEM_DocumentationBlock" [k!"ITEM"]
    .nil)
   k!"writeDocumentationBlock_TEXT_DocumentationBlock" [k!"TEXT"]
   (.node (.node .nil
     k!"setFlatInstanceDescriptor_FlatInstanceDescriptor" [k!"FLAT-INSTANCE-DESCRIPTOR"]
     .nil)
    k!"setMultiLongName_LONG_NAME_MultilanguageLongName" [k!"LONG-NAME"]
    .nil))
  k!"setResourceConsumption_ResourceConsumption_L4184" [k!"SECTION-NAME-PREFIX"]
  (.node (.node (.node .nil
     k!"setResourceConsumption_ResourceConsumption_L4192" [k!"ACCESS-COUNT-SET"]
     .nil)
    k!"setResourceConsumption_ResourceConsumption_L4198" [k!"ACCESS-COUNT"]
    .nil)
   k!"setRunnableEntityArgument_RunnableEntityArgument" [k!"RUNNABLE-ENTITY-ARGUMENT"]
   (.node .nil
    k!"setTimeRangeType_REPETITION_PERIOD_TimeRangeType" [k!"REPETITION-PERIOD"]
    .nil))))

def tagTable32 : Bst (List Key) :=
 (.node (.node (.node (.node (.node .nil
     k!"writeArgumentDataPrototype_ArgumentDataPrototype" [k!"ARGUMENT-DATA-PROTOTYPE"]
     .nil)
    k!"writeClientServerInterface_ClientServerInterface" [k!"CLIENT-SERVER-INTERFACE"]
    .nil)
   k!"writeClientServerOperation_ClientServerOperation" [k!"CLIENT-SERVER-OPERATION"]
   (.node (.node .nil
     k!"writeConstantSpecification_ConstantSpecification" [k!"CONSTANT-SPECIFICATION"]
     .nil)
    k!"writeCouplingPortScheduler_CouplingPortScheduler" [k!"COUPLING-PORT-SCHEDULER"]
    .nil))
  k!"writeDataTransformationSet_DataTransformationSet" [k!"DATA-TRANSFORMATION-SET"]
  (.node (.node (.node .nil
     k!"writeDelegationSwConnector_DelegationSwConnector" [k!"DELEGATION-SW-CONNECTOR"]
     .nil)
    k!"writeEcucDestinationUriDef_EcucDestinationUriDef" [k!"ECUC-DESTINATION-URI-DEF"]
    .nil)
   k!"writeEndToEndProtectionSet_EndToEndProtectionSet" [k!"END-TO-END-PROTECTION-SET"]
   (.node .nil
    k!"writeHwAttributeLiteralDef_HwAttributeLiteralDef" [k!"HW-ATTRIBUTE-LITERAL-DEF"]
    .nil)))
 k!"writeLinUnconditionalFrame_LinUnconditionalFrame" [k!"LIN-UNCONDITIONAL-FRAME"]
 (.node (.node (.node (.node .nil
     k!"writeMeasuredExecutionTime_MeasuredExecutionTime" [k!"MEASURED-EXECUTION-TIME"]
     .nil)
    k!"writeOperationInvokedEvent_OperationInvokedEvent" [k!"OPERATION-INVOKED-EVENT"]
    .nil)
   k!"writeQueuedReceiverComSpec_QueuedReceiverComSpec" [k!"QUEUED-RECEIVER-COM-SPEC"]
   (.node (.node .nil
     k!"writeSupervisedEntityNeeds_SupervisedEntityNeeds" [k!"SUPERVISED-ENTITY-NEEDS"]
     .nil)
    k!"writeTriggerPortAnnotation_TriggerPortAnnotation" [k!"TRIGGER-PORT-ANNOTATION"]
    .nil))
  k!"writeVariableDataPrototype_VariableDataPrototype" [k!"VARIABLE-DATA-PROTOTYPE"]
  (.node (.node (.node .nil
     k!"setSdClientConfig_SD_CLIENT_CONFIG_SdClientConfig" [k!"SD-CLIENT-CONFIG"]
     .nil)
    k!"setSdServerConfig_SD_SERVER_CONFIG_SdServerConfig" [k!"SD-SERVER-CONFIG"]
    .nil)
   k!"writeDocumentationBlock_REMARK_DocumentationBlock" [k!"REMARK"]
   (.node .nil
    k!"writeModeRequestTypeMaps_DataTypeMappingSet_L5632" [k!"MODE-REQUEST-TYPE-MAP"]
    .nil))))

def tagTable33 : Bst (List Key) :=
 .node tagTable31 k!"writeAnalyzedExecutionTime_AnalyzedExecutionTime" [k!"ANALYZED-EXECUTION-TIME"] tagTable32

def tagTable34 : Bst (List Key) :=
 (.node (.node (.node (.node (.node .nil
     k!"setCompuConst_COMPU_DEFAULT_VALUE_CompuConst_L2282" [k!"VF"]
     .nil)
    k!"setCompuConst_COMPU_DEFAULT_VALUE_CompuConst_L2284" [k!"V"]
    .nil)
   k!"setCompuConst_COMPU_DEFAULT_VALUE_CompuConst_L2286" [k!"VT"]
   (.node (.node .nil
     k!"setEcucNumericalParamValue_EcucNumericalParamValue" [k!"ECUC-NUMERICAL-PARAM-VALUE"]
     .nil)
    k!"setRoughEstimateStackUsage_RoughEstimateStackUsage" [k!"ROUGH-ESTIMATE-STACK-USAGE"]
    .nil))
  k!"setSwDataDefProps_SW_DATA_DEF_PROPS_SwDataDefProps" [k!"SW-DATA-DEF-PROPS"]
  (.node (.node (.node .nil
     k!"writeAssemblySwConnector_AssemblySwConnector_L1689" [k!"PROVIDER-IREF"]
     .nil)
    k!"writeAssemblySwConnector_AssemblySwConnector_L1696" [k!"REQUESTER-IREF"]
    .nil)
   k!"writeClientServerAnnotation_ClientServerAnnotation" [k!"CLIENT-SERVER-ANNOTATION"]
   (.node .nil
    k!"writeDataSendCompletedEvent_DataSendCompletedEvent" [k!"DATA-SEND-COMPLETED-EVENT"]
    .nil)))
 k!"writeDiagnosticRoutineNeeds_DiagnosticRoutineNeeds" [k!"DIAGNOSTIC-ROUTINE-NEEDS"]
 (.node (.node (.node (.node .nil
     k!"writeDiagnosticServiceTable_DiagnosticServiceTable" [k!"DIAGNOSTIC-SERVICE-TABLE"]
     .nil)
    k!"writeDynamicPartAlternative_DynamicPartAlternative" [k!"DYNAMIC-PART-ALTERNATIVE"]
    .nil)
   k!"writeEOCExecutableEntityRef_EOCExecutableEntityRef" [k!"EOC-EXECUTABLE-ENTITY-REF"]
   (.node (.node .nil
     k!"writeEcucChoiceContainerDef_EcucChoiceContainerDef" [k!"ECUC-CHOICE-CONTAINER-DEF"]
     .nil)
    k!"writeEcucChoiceReferenceDef_EcucChoiceReferenceDef" [k!"ECUC-CHOICE-REFERENCE-DEF"]
    .nil))
  k!"writeFlexrayFrameTriggering_FlexrayFrameTriggering" [k!"FLEXRAY-FRAME-TRIGGERING"]
  (.node (.node (.node .nil
     k!"writeFlexrayPhysicalChannel_FlexrayPhysicalChannel" [k!"FLEXRAY-PHYSICAL-CHANNEL"]
     .nil)
    k!"writeImplementationDataType_ImplementationDataType" [k!"IMPLEMENTATION-DATA-TYPE"]
    .nil)
   k!"writeMcDataAccessDetails_McDataAccessDetails_L4331" [k!"RTE-EVENT-IREF"]
   (.node .nil
    k!"writeMcDataAccessDetails_McDataAccessDetails_L4336" [k!"VARIABLE-ACCESS-IREF"]
    .nil))))

def tagTable35 : Bst (List Key) :=
 (.node (.node (.node (.node (.node .nil
     k!"writeNonqueuedSenderComSpec_NonqueuedSenderComSpec" [k!"NONQUEUED-SENDER-COM-SPEC"]
     .nil)
    k!"writeNvBlockSwComponentType_NvBlockSwComponentType" [k!"NV-BLOCK-SW-COMPONENT-TYPE"]
    .nil)
   k!"writeObdControlServiceNeeds_ObdControlServiceNeeds" [k!"OBD-CONTROL-SERVICE-NEEDS"]
   (.node (.node .nil
     k!"writeObdMonitorServiceNeeds_ObdMonitorServiceNeeds" [k!"OBD-MONITOR-SERVICE-NEEDS"]
     .nil)
    k!"writeParameterDataPrototype_ParameterDataPrototype" [k!"PARAMETER-DATA-PROTOTYPE"]
    .nil))
  k!"writePassThroughSwConnector_PassThroughSwConnector" [k!"PASS-THROUGH-SW-CONNECTOR"]
  (.node (.node (.node .nil
     k!"writePortPrototypeBlueprint_PortPrototypeBlueprint" [k!"PORT-PROTOTYPE-BLUEPRINT"]
     .nil)
    k!"writeRoughEstimateHeapUsage_RoughEstimateHeapUsage" [k!"ROUGH-ESTIMATE-HEAP-USAGE"]
    .nil)
   k!"writeRptExecutableEntity_RptExecutableEntity_L4436" [k!"RPT-EXECUTABLE-ENTITY-EVENT"]
   (.node .nil
    k!"writeRunnableEntityWaitPoints_RunnableEntity_L3160" [k!"WAIT-POINT"]
    .nil)))
 k!"writeServiceSwComponentType_ServiceSwComponentType" [k!"SERVICE-SW-COMPONENT-TYPE"]
 (.node (.node (.node (.node .nil
     k!"writeSimulatedExecutionTime_SimulatedExecutionTime" [k!"SIMULATED-EXECUTION-TIME"]
     .nil)
    k!"writeSocketConnectionBundle_SocketConnectionBundle" [k!"SOCKET-CONNECTION-BUNDLE"]
    .nil)
   k!"writeSwcInternalBehavior_SwcInternalBehavior_L3899" [k!"INCLUDED-DATA-TYPE-SET"]
   (.node (.node .nil
     k!"writeTextValueSpecification_TextValueSpecification" [k!"TEXT-VALUE-SPECIFICATION"]
     .nil)
    k!"writeVariationPointProxy_VariationPointProxy_L3267" [k!"LIMIT"]
    .nil))
  k!"writeDocumentationBlock_USE_CASE_DocumentationBlock" [k!"USE-CASE"]
  (.node (.node (.node .nil
     k!"setChildElementJ1939NodeName_NODE_NAME_J1939NodeName" [k!"NODE-NAME"]
     .nil)
    k!"writeArrayValueSpecification_ArrayValueSpecification" [k!"ARRAY-VALUE-SPECIFICATION"]
    .nil)
   k!"writeBswModeSwitchedAckEvent_BswModeSwitchedAckEvent" [k!"BSW-MODE-SWITCHED-ACK-EVENT"]
   (.node .nil
    k!"writeConsumedServiceInstance_ConsumedServiceInstance" [k!"CONSUMED-SERVICE-INSTANCE"]
    .nil))))

def tagTable36 : Bst (List Key) :=
 .node tagTable34 k!"writeModeDeclarationMapping_ModeDeclarationMapping" [k!"MODE-DECLARATION-MAPPING"] tagTable35

def tagTable37 : Bst (List Key) :=
 .node tagTable33 k!"setApplicationArrayElement_ApplicationArrayElement" [k!"ELEMENT"] tagTable36

def tagTable38 : Bst (List Key) :=
 (.node (.node (.node (.node (.node .nil
     k!"writeDependencyOnArtifact_DependencyOnArtifact_L4539" [k!"ARTIFACT-DESCRIPTOR"]
     .nil)
    k!"writeDocumentationBlock_CONFLICTS_DocumentationBlock" [k!"CONFLICTS"]
    .nil)
   k!"writeDocumentationBlock_DEF_DocumentationBlock_L1813" [k!"P"]
   (.node (.node .nil
     k!"writeDocumentationBlock_DEF_DocumentationBlock_L1853" [k!"FIGURE"]
     .nil)
    k!"writeDocumentationBlock_NOTE_TEXT_DocumentationBlock" [k!"NOTE-TEXT"]
    .nil))
  k!"writeDocumentationBlock_RATIONALE_DocumentationBlock" [k!"RATIONALE"]
  (.node (.node (.node .nil
     k!"writeEcucEnumerationParamDef_EcucEnumerationParamDef" [k!"ECUC-ENUMERATION-PARAM-DEF"]
     .nil)
    k!"writeEthernetPhysicalChannel_EthernetPhysicalChannel" [k!"ETHERNET-PHYSICAL-CHANNEL"]
    .nil)
   k!"writeModeSwitchSenderComSpec_ModeSwitchSenderComSpec" [k!"MODE-SWITCH-SENDER-COM-SPEC"]
   (.node .nil
    k!"writeParameterPortAnnotation_ParameterPortAnnotation" [k!"PARAMETER-PORT-ANNOTATION"]
    .nil)))
 k!"writeParameterProvideComSpec_ParameterProvideComSpec" [k!"PARAMETER-PROVIDE-COM-SPEC"]
 (.node (.node (.node (.node .nil
     k!"writeParameterRequireComSpec_ParameterRequireComSpec" [k!"PARAMETER-REQUIRE-COM-SPEC"]
     .nil)
    k!"writePortInterfaceMappingSet_PortInterfaceMappingSet" [k!"PORT-INTERFACE-MAPPING-SET"]
    .nil)
   k!"writeProvidedServiceInstance_ProvidedServiceInstance" [k!"PROVIDED-SERVICE-INSTANCE"]
   (.node (.node .nil
     k!"writeReceiverReplaceWith_REPLACE_WITH_VariableAccess" [k!"REPLACE-WITH"]
     .nil)
    k!"writeRoleBasedDataAssignment_RoleBasedDataAssignment" [k!"ROLE-BASED-DATA-ASSIGNMENT"]
    .nil))
  k!"writeRoleBasedPortAssignment_RoleBasedPortAssignment" [k!"ROLE-BASED-PORT-ASSIGNMENT"]
  (.node (.node (.node .nil
     k!"writeSenderReceiverInterface_SenderReceiverInterface" [k!"SENDER-RECEIVER-INTERFACE"]
     .nil)
    k!"writeVariationPointProxy_VariationPointProxy_L3267_2" [k!"NUMERICAL-VALUE-VARIATION-POINT"]
    .nil)
   k!"writeVariationPointProxy_VariationPointProxy_L3267_3" [k!"BOOLEAN-VALUE-VARIATION-POINT"]
   (.node .nil
    k!"writeVariationPointProxy_VariationPointProxy_L3267_4" [k!"FLOAT-VALUE-VARIATION-POINT"]
    .nil))))

def tagTable39 : Bst (List Key) :=
 (.node (.node (.node (.node (.node .nil
     k!"writeVariationPointProxy_VariationPointProxy_L3267_6" [k!"POSITIVE-INTEGER-VALUE-VARIATION-POINT"]
     .nil)
    k!"writeVariationPointProxy_VariationPointProxy_L3267_7" [k!"TIME-VALUE-VARIATION-POINT"]
    .nil)
   k!"writeVariationPointProxy_VariationPointProxy_L3267_8" [k!"UNLIMITED-INTEGER-VALUE-VARIATION-POINT"]
   (.node (.node .nil
     k!"setAutosarVariableRef_READ_NV_DATA_AutosarVariableRef" [k!"READ-NV-DATA"]
     .nil)
    k!"setSwRecordLayoutV_SW_RECORD_LAYOUT_V_SwRecordLayoutV" [k!"SW-RECORD-LAYOUT-V"]
    .nil))
  k!"setApplicationEntry_APPLICATION_ENTRY_ApplicationEntry" [k!"APPLICATION-ENTRY"]
  (.node (.node (.node .nil
     k!"setBufferProperties_BUFFER_PROPERTIES_BufferProperties" [k!"BUFFER-PROPERTIES"]
     .nil)
    k!"setModeSwitchReceiverComSpec_ModeSwitchReceiverComSpec" [k!"MODE-SWITCH-RECEIVER-COM-SPEC"]
    .nil)
   k!"writeApplicationArrayDataType_ApplicationArrayDataType" [k!"APPLICATION-ARRAY-DATA-TYPE"]
   (.node .nil
    k!"writeApplicationRecordElement_ApplicationRecordElement" [k!"APPLICATION-RECORD-ELEMENT"]
    .nil)))
 k!"writeAutosarEngineeringObject_AutosarEngineeringObject" [k!"AUTOSAR-ENGINEERING-OBJECT"]
 (.node (.node (.node (.node .nil
     k!"writeBswModeManagerErrorEvent_BswModeManagerErrorEvent" [k!"BSW-MODE-MANAGER-ERROR-EVENT"]
     .nil)
    k!"writeBswOperationInvokedEvent_BswOperationInvokedEvent" [k!"BSW-OPERATION-INVOKED-EVENT"]
    .nil)
   k!"writeDelegationSwConnector_DelegationSwConnector_L1710" [k!"P-PORT-IN-COMPOSITION-INSTANCE-REF"]
   (.node (.node .nil
     k!"writeDelegationSwConnector_DelegationSwConnector_L1714" [k!"R-PORT-IN-COMPOSITION-INSTANCE-REF"]
     .nil)
    k!"writeDiagnosticEventInfoNeeds_DiagnosticEventInfoNeeds" [k!"DIAGNOSTIC-EVENT-INFO-NEEDS"]
    .nil))
  k!"writeDiagnosticIoControlNeeds_DiagnosticIoControlNeeds" [k!"DIAGNOSTIC-IO-CONTROL-NEEDS"]
  (.node (.node (.node .nil
     k!"writeDocumentationBlock_DESCRIPTION_DocumentationBlock" [k!"DESCRIPTION"]
     .nil)
    k!"writeEcucDefinitionCollection_EcucDefinitionCollection" [k!"ECUC-DEFINITION-COLLECTION"]
    .nil)
   k!"writeEcucDefinitionElement_EcucDefinitionElement_L7108" [k!"ECUC-VALIDATION-CONDITION"]
   (.node .nil
    k!"writeEcucDestinationUriDefSet_EcucDestinationUriDefSet" [k!"ECUC-DESTINATION-URI-DEF-SET"]
    .nil))))

def tagTable40 : Bst (List Key) :=
 .node tagTable38 k!"writeVariationPointProxy_VariationPointProxy_L3267_5" [k!"INTEGER-VALUE-VARIATION-POINT"] tagTable39

def tagTable41 : Bst (List Key) :=
 (.node (.node (.node (.node (.node .nil
     k!"writeEcucInstanceReferenceDef_EcucInstanceReferenceDef" [k!"ECUC-INSTANCE-REFERENCE-DEF"]
     .nil)
    k!"writeExclusiveAreaNestingOrders_InternalBehavior_L2679" [k!"EXCLUSIVE-AREA-NESTING-ORDER"]
    .nil)
   k!"writeExecutionOrderConstraint_ExecutionOrderConstraint" [k!"EXECUTION-ORDER-CONSTRAINT"]
   (.node (.node .nil
     k!"writeNonqueuedReceiverComSpec_NonqueuedReceiverComSpec" [k!"NONQUEUED-RECEIVER-COM-SPEC"]
     .nil)
    k!"writeObdRatioDenominatorNeeds_ObdRatioDenominatorNeeds" [k!"OBD-RATIO-DENOMINATOR-NEEDS"]
    .nil))
  k!"writeRecordValueSpecification_RecordValueSpecification" [k!"RECORD-VALUE-SPECIFICATION"]
  (.node (.node (.node .nil
     k!"writeSenderReceiverAnnotation_SenderReceiverAnnotation" [k!"SENDER-RECEIVER-ANNOTATION"]
     .nil)
    k!"writeSwSystemconstantValueSet_SwSystemconstantValueSet" [k!"SW-SYSTEMCONSTANT-VALUE-SET"]
    .nil)
   k!"writeTransformationTechnology_TransformationTechnology" [k!"TRANSFORMATION-TECHNOLOGY"]
   (.node .nil
    k!"writeTransmissionComSpecProps_TransmissionComSpecProps" [k!"TRANSMISSION-PROPS"]
    .nil)))
 k!"setAutosarParameterRef_AR_PARAMETER_AutosarParameterRef" [k!"AR-PARAMETER"]
 (.node (.node (.node (.node .nil
     k!"setFlexrayFifoRange_FLEXRAY_FIFO_RANGE_FlexrayFifoRange" [k!"FLEXRAY-FIFO-RANGE"]
     .nil)
    k!"setMultiLanguageVerbatim_VERBATIM_MultiLanguageVerbatim" [k!"VERBATIM"]
    .nil)
   k!"setSwDataDefProps_NETWORK_REPRESENTATION_SwDataDefProps" [k!"NETWORK-REPRESENTATION"]
   (.node (.node .nil
     k!"writeDocumentationBlock_DEPENDENCIES_DocumentationBlock" [k!"DEPENDENCIES"]
     .nil)
    k!"writeDocumentationBlock_INTRODUCTION_DocumentationBlock" [k!"INTRODUCTION"]
    .nil))
  k!"writeModeSwitchPointModeGroupIRef_ModeSwitchPoint_L3119" [k!"MODE-GROUP-IREF"]
  (.node (.node (.node .nil
     k!"setAnyInstanceRef_UPSTREAM_REFERENCE_IREF_AnyInstanceRef" [k!"UPSTREAM-REFERENCE-IREF"]
     .nil)
    k!"setAutosarVariableRef_WRITTEN_NV_DATA_AutosarVariableRef" [k!"WRITTEN-NV-DATA"]
    .nil)
   k!"setDiagEventDebounceTimeBased_DiagEventDebounceTimeBased" [k!"DIAG-EVENT-DEBOUNCE-TIME-BASED"]
   (.node .nil
    k!"setEcucInstanceReferenceValue_EcucInstanceReferenceValue" [k!"ECUC-INSTANCE-REFERENCE-VALUE"]
    .nil))))

def tagTable42 : Bst (List Key) :=
 (.node (.node (.node (.node (.node .nil
     k!"setSynchronousServerCallPoint_SynchronousServerCallPoint" [k!"SYNCHRONOUS-SERVER-CALL-POINT"]
     .nil)
    k!"writeApplicationRecordDataType_ApplicationRecordDataType" [k!"APPLICATION-RECORD-DATA-TYPE"]
    .nil)
   k!"writeBswServiceDependencyIdent_BswServiceDependencyIdent" [k!"IDENT"]
   (.node (.node .nil
     k!"writeDocumentationBlock_ITEM_CONTENTS_DocumentationBlock" [k!"ITEM-CONTENTS"]
     .nil)
    k!"writeEcucEnumerationLiteralDef_EcucEnumerationLiteralDef" [k!"ECUC-ENUMERATION-LITERAL-DEF"]
    .nil))
  k!"writeEcucParamConfContainerDef_EcucParamConfContainerDef" [k!"ECUC-PARAM-CONF-CONTAINER-DEF"]
  (.node (.node (.node .nil
     k!"writeModeDeclarationMappingSet_ModeDeclarationMappingSet" [k!"MODE-DECLARATION-MAPPING-SET", k!"MODE-DECLARATION-MAPPINGS"]
     .nil)
    k!"writePostBuildVariantCondition_PostBuildVariantCondition" [k!"POST-BUILD-VARIANT-CONDITION"]
    .nil)
   k!"writePostBuildVariantCriterion_PostBuildVariantCriterion" [k!"POST-BUILD-VARIANT-CRITERION"]
   (.node .nil
    k!"writeSwcBswSynchronizedTrigger_SwcBswSynchronizedTrigger" [k!"SWC-BSW-SYNCHRONIZED-TRIGGER"]
    .nil)))
 k!"setAutosarVariableRef_AUTOSAR_VARIABLE_AutosarVariableRef" [k!"AUTOSAR-VARIABLE"]
 (.node (.node (.node (.node .nil
     k!"setMultiLanguagePlainText_TEX_MATH_MultiLanguagePlainText" [k!"TEX-MATH"]
     .nil)
    k!"writeSocketAddressApplicationEndpoint_SocketAddress_L6734" [k!"APPLICATION-ENDPOINT"]
    .nil)
   k!"setAsynchronousServerCallPoint_AsynchronousServerCallPoint" [k!"ASYNCHRONOUS-SERVER-CALL-POINT"]
   (.node (.node .nil
     k!"setAutosarVariableRef_ACCESSED_VARIABLE_AutosarVariableRef" [k!"ACCESSED-VARIABLE"]
     .nil)
    k!"setAutosarVariableRef_USED_DATA_ELEMENT_AutosarVariableRef" [k!"USED-DATA-ELEMENT"]
    .nil))
  k!"setAutosarVariableRef_VARIABLE_INSTANCE_AutosarVariableRef" [k!"VARIABLE-INSTANCE"]
  (.node (.node (.node .nil
     k!"writeApplicationSwComponentType_ApplicationSwComponentType" [k!"APPLICATION-SW-COMPONENT-TYPE"]
     .nil)
    k!"writeBswInternalTriggeringPoint_BswInternalTriggeringPoint" [k!"BSW-INTERNAL-TRIGGERING-POINT"]
    .nil)
   k!"writeBswModuleClientServerEntry_BswModuleClientServerEntry" [k!"BSW-MODULE-CLIENT-SERVER-ENTRY"]
   (.node .nil
    k!"writeCanCommunicationController_CanCommunicationController" [k!"CAN-COMMUNICATION-CONTROLLER"]
    .nil))))

def tagTable43 : Bst (List Key) :=
 .node tagTable41 k!"setSwCalprmRefProxy_SW_CALPRM_REF_PROXY_SwCalprmRefProxy" [k!"SW-CALPRM-REF-PROXY"] tagTable42

def tagTable44 : Bst (List Key) :=
 .node tagTable40 k!"writeEcucDestinationUriPolicy_EcucDestinationUriPolicy" [k!"DESTINATION-URI-POLICY"] tagTable43

def tagTable45 : Bst (List Key) :=
 .node tagTable37 k!"writeDelegatedPortAnnotation_DelegatedPortAnnotation" [k!"DELEGATED-PORT-ANNOTATION"] tagTable44

def tagTable46 : Bst (List Key) :=
 (.node (.node (.node (.node (.node .nil
     k!"writeDocumentationBlock_ANNOTATION_TEXT_DocumentationBlock" [k!"ANNOTATION-TEXT"]
     .nil)
    k!"writeEcucConditionSpecification_EcucConditionSpecification" [k!"ECUC-COND"]
    .nil)
   k!"writeEcucValidationCondition_EcucValidationCondition_L7100" [k!"ECUC-QUERY"]
   (.node (.node .nil
     k!"writeInnerGroupIRef_InnerPortGroupInCompositionInstanceRef" [k!"INNER-GROUP-IREF"]
     .nil)
    k!"writeSenderRecRecordTypeMapping_SenderRecRecordTypeMapping" [k!"SENDER-REC-RECORD-TYPE-MAPPING"]
    .nil))
  k!"setAnyInstanceRef_ECU_EXTRACT_REFERENCE_IREF_AnyInstanceRef" [k!"ECU-EXTRACT-REFERENCE-IREF"]
  (.node (.node (.node .nil
     k!"writeConditionByFormula_ConditionByFormula_CONDITION_ACCESS" [k!"CONDITION-ACCESS"]
     .nil)
    k!"writeModeSwitchInterfaceModeGroup_ModeSwitchInterface_L5688" [k!"MODE-GROUP"]
    .nil)
   k!"writeEcucDerivationSpecification_EcucDerivationSpecification" [k!"DERIVATION"]
   (.node (.node .nil
     k!"writeEcucMultilineStringParamDef_EcucMultilineStringParamDef" [k!"ECUC-MULTILINE-STRING-PARAM-DEF"]
     .nil)
    k!"writeEcucValueConfigurationClass_EcucValueConfigurationClass" [k!"ECUC-VALUE-CONFIGURATION-CLASS"]
    .nil)))
 k!"writeNumericalValueSpecification_NumericalValueSpecification" [k!"NUMERICAL-VALUE-SPECIFICATION"]
 (.node (.node (.node (.node .nil
     k!"writeRoleBasedDataTypeAssignment_RoleBasedDataTypeAssignment" [k!"ROLE-BASED-DATA-TYPE-ASSIGNMENT"]
     .nil)
    k!"writeRptExecutableEntityEvent_RptExecutableEntityEvent_L4416" [k!"RPT-EXECUTABLE-ENTITY-PROPERTIES"]
    .nil)
   k!"writeSecureCommunicationPropsSet_SecureCommunicationPropsSet" [k!"SECURE-COMMUNICATION-PROPS-SET"]
   (.node (.node .nil
     k!"writeServiceProxySwComponentType_ServiceProxySwComponentType" [k!"SERVICE-PROXY-SW-COMPONENT-TYPE"]
     .nil)
    k!"setAutosarParameterRef_ACCESSED_PARAMETER_AutosarParameterRef" [k!"ACCESSED-PARAMETER"]
    .nil))
  k!"setAutosarParameterRef_PARAMETER_INSTANCE_AutosarParameterRef" [k!"PARAMETER-INSTANCE"]
  (.node (.node (.node .nil
     k!"setAutosarVariableRef_NV_RAM_BLOCK_ELEMENT_AutosarVariableRef" [k!"NV-RAM-BLOCK-ELEMENT"]
     .nil)
    k!"setAutosarVariableRef_WRITTEN_READ_NV_DATA_AutosarVariableRef" [k!"WRITTEN-READ-NV-DATA"]
    .nil)
   k!"setEndToEndDescription_END_TO_END_PROFILE_EndToEndDescription" [k!"END-TO-END-PROFILE"]
   (.node .nil
    k!"setMultiLanguagePlainText_GENERIC_MATH_MultiLanguagePlainText" [k!"GENERIC-MATH"]
    .nil))))

def tagTable47 : Bst (List Key) :=
 (.node (.node (.node (.node (.node .nil
     k!"writeInstantiationRTEEventProps_InstantiationTimingEventProps" [k!"INSTANTIATION-TIMING-EVENT-PROPS"]
     .nil)
    k!"setBswModeSwitchAckRequest_ACK_REQUEST_BswModeSwitchAckRequest" [k!"ACK-REQUEST"]
    .nil)
   k!"setDiagEventDebounceCounterBased_DiagEventDebounceCounterBased" [k!"DIAG-EVENT-DEBOUNCE-COUNTER-BASED"]
   (.node (.node .nil
     k!"setMultidimensionalTime_SW_REFRESH_TIMING_MultidimensionalTime" [k!"SW-REFRESH-TIMING"]
     .nil)
    k!"setSwVariableRefProxy_SW_VARIABLE_REF_PROXY_SwVariableRefProxy" [k!"SW-VARIABLE-REF-PROXY"]
    .nil))
  k!"writeApplicationPrimitiveDataType_ApplicationPrimitiveDataType" [k!"APPLICATION-PRIMITIVE-DATA-TYPE"]
  (.node (.node (.node .nil
     k!"writeBswQueuedDataReceptionPolicy_BswQueuedDataReceptionPolicy" [k!"BSW-QUEUED-DATA-RECEPTION-POLICY"]
     .nil)
    k!"writeClientServerInterfaceMapping_ClientServerInterfaceMapping" [k!"CLIENT-SERVER-INTERFACE-MAPPING"]
    .nil)
   k!"writeClientServerOperationMapping_ClientServerOperationMapping" [k!"CLIENT-SERVER-OPERATION-MAPPING"]
   (.node .nil
    k!"writeDocumentationBlock_BLUEPRINT_CONDITION_DocumentationBlock" [k!"BLUEPRINT-CONDITION"]
    .nil)))
 k!"writeDocumentationBlock_DOCUMENTATION_BLOCK_DocumentationBlock" [k!"DOCUMENTATION-BLOCK"]
 (.node (.node (.node (.node .nil
     k!"writeDocumentationBlock_MSR_QUERY_RESULT_P2_DocumentationBlock" [k!"MSR-QUERY-RESULT-P2"]
     .nil)
    k!"writeDocumentationBlock_SUPPORTING_MATERIAL_DocumentationBlock" [k!"SUPPORTING-MATERIAL"]
    .nil)
   k!"writeE2EProfileCompatibilityProps_E2EProfileCompatibilityProps" [k!"E-2-E-PROFILE-COMPATIBILITY-PROPS"]
   (.node (.node .nil
     k!"writeEcucSymbolicNameReferenceDef_EcucSymbolicNameReferenceDef" [k!"ECUC-SYMBOLIC-NAME-REFERENCE-DEF"]
     .nil)
    k!"writeEthernetPhysicalChannelVlan_EthernetPhysicalChannel_L6776" [k!"VLAN"]
    .nil))
  k!"writeEthernetPriorityRegeneration_EthernetPriorityRegeneration" [k!"ETHERNET-PRIORITY-REGENERATION"]
  (.node (.node (.node .nil
     k!"writeRoughEstimateOfExecutionTime_RoughEstimateOfExecutionTime" [k!"ROUGH-ESTIMATE-OF-EXECUTION-TIME"]
     .nil)
    k!"setMultiLanguagePlainText_USED_LANGUAGES_MultiLanguagePlainText" [k!"USED-LANGUAGES"]
    .nil)
   k!"writeModeInterfaceMappingModeMapping_ModeInterfaceMapping_L8150" [k!"MODE-MAPPING"]
   (.node .nil
    k!"setCouplingPortDetails_COUPLING_PORT_DETAILS_CouplingPortDetails" [k!"COUPLING-PORT-DETAILS"]
    .nil))))

def tagTable48 : Bst (List Key) :=
 .node tagTable46 k!"setSwDataDefProps_NETWORK_REPRESENTATION_PROPS_SwDataDefProps" [k!"NETWORK-REPRESENTATION-PROPS"] tagTable47

def tagTable49 : Bst (List Key) :=
 (.node (.node (.node (.node (.node .nil
     k!"writeApplicationValueSpecification_ApplicationValueSpecification" [k!"APPLICATION-VALUE-SPECIFICATION"]
     .nil)
    k!"writeBswSynchronousServerCallPoint_BswSynchronousServerCallPoint" [k!"BSW-SYNCHRONOUS-SERVER-CALL-POINT"]
    .nil)
   k!"writeDiagnosticOperationCycleNeeds_DiagnosticOperationCycleNeeds" [k!"DIAGNOSTIC-OPERATION-CYCLE-NEEDS"]
   (.node (.node .nil
     k!"writeEcuAbstractionSwComponentType_EcuAbstractionSwComponentType" [k!"ECU-ABSTRACTION-SW-COMPONENT-TYPE"]
     .nil)
    k!"writeEcucConditionFormula_CONDITION_FORMULA_EcucConditionFormula" [k!"CONDITION-FORMULA"]
    .nil))
  k!"writeEcucModuleConfigurationValues_EcucModuleConfigurationValues" [k!"ECUC-MODULE-CONFIGURATION-VALUES"]
  (.node (.node (.node .nil
     k!"writeEndToEndProtectionISignalIPdu_EndToEndProtectionISignalIPdu" [k!"END-TO-END-PROTECTION-I-SIGNAL-I-PDU"]
     .nil)
    k!"writeImplementationDataTypeElement_ImplementationDataTypeElement" [k!"IMPLEMENTATION-DATA-TYPE-ELEMENT"]
    .nil)
   k!"writeMcSwEmulationMethodSupport_McSwEmulationMethodSupport_L4308" [k!"MC-PARAMETER-ELEMENT-GROUP"]
   (.node .nil
    k!"writeModeDeclarationGroupPrototype_ModeDeclarationGroupPrototype" [k!"MODE-DECLARATION-GROUP-PROTOTYPE"]
    .nil)))
 k!"writeReceptionComSpecProps_RECEPTION_PROPS_ReceptionComSpecProps" [k!"RECEPTION-PROPS"]
 (.node (.node (.node (.node .nil
     k!"writeRunnableEntityExternalTriggeringPoints_RunnableEntity_L3098" [k!"EXTERNAL-TRIGGERING-POINT"]
     .nil)
    k!"writeSenderRecRecordElementMapping_SenderRecRecordElementMapping" [k!"SENDER-REC-RECORD-ELEMENT-MAPPING"]
    .nil)
   k!"writeSenderReceiverToSignalMapping_SenderReceiverToSignalMapping" [k!"SENDER-RECEIVER-TO-SIGNAL-MAPPING"]
   (.node (.node .nil
     k!"writeSensorActuatorSwComponentType_SensorActuatorSwComponentType" [k!"SENSOR-ACTUATOR-SW-COMPONENT-TYPE"]
     .nil)
    k!"writeSignalServiceTranslationProps_SignalServiceTranslationProps" [k!"SIGNAL-SERVICE-TRANSLATION-PROPS"]
    .nil))
  k!"writeSwcInternalBehaviorPortAPIOptions_SwcInternalBehavior_L3313" [k!"PORT-DEFINED-ARGUMENT-VALUE"]
  (.node (.node (.node .nil
     k!"writeSwcInternalBehaviorPortAPIOptions_SwcInternalBehavior_L3323" [k!"PORT-API-OPTION"]
     .nil)
    k!"setAutosarParameterRef_USED_PARAMETER_ELEMENT_AutosarParameterRef" [k!"USED-PARAMETER-ELEMENT"]
    .nil)
   k!"setSwRecordLayoutGroup_SW_RECORD_LAYOUT_GROUP_SwRecordLayoutGroup" [k!"SW-RECORD-LAYOUT-GROUP"]
   (.node .nil
    k!"writeEcucConditionFormula_VALIDATION_FORMULA_EcucConditionFormula" [k!"VALIDATION-FORMULA"]
    .nil))))

def tagTable50 : Bst (List Key) :=
 (.node (.node (.node (.node (.node .nil
     k!"setChildElementRxIdentifierRange_NM_RANGE_CONFIG_RxIdentifierRange" [k!"NM-RANGE-CONFIG"]
     .nil)
    k!"setInitialSdDelayConfig_INITIAL_FIND_BEHAVIOR_InitialSdDelayConfig" [k!"INITIAL-FIND-BEHAVIOR"]
    .nil)
   k!"setModeSwitchedAckRequest_MODE_SWITCHED_ACK_ModeSwitchedAckRequest" [k!"MODE-SWITCHED-ACK"]
   (.node (.node .nil
     k!"setRVariableInAtomicSwcInstanceRef_RVariableInAtomicSwcInstanceRef" [k!"DATA-IREF"]
     .nil)
    k!"writeBswAsynchronousServerCallPoint_BswAsynchronousServerCallPoint" [k!"BSW-ASYNCHRONOUS-SERVER-CALL-POINT"]
    .nil))
  k!"writeCompositeNetworkRepresentation_CompositeNetworkRepresentation" [k!"COMPOSITE-NETWORK-REPRESENTATION"]
  (.node (.node (.node .nil
     k!"writeDiagnosticEnableConditionNeeds_DiagnosticEnableConditionNeeds" [k!"DIAGNOSTIC-ENABLE-CONDITION-NEEDS"]
     .nil)
    k!"writeEcucParameterDerivationFormula_EcucParameterDerivationFormula" [k!"CALCULATION-FORMULA"]
    .nil)
   k!"writeFlexrayCommunicationController_FlexrayCommunicationController" [k!"FLEXRAY-COMMUNICATION-CONTROLLER"]
   (.node .nil
    k!"writeModeDeclarationGroupModeTransition_ModeDeclarationGroup_L5669" [k!"MODE-TRANSITION"]
    .nil)))
 k!"writeSwComponentTypeSwComponentDocumentation_SwComponentType_L1547" [k!"SW-COMPONENT-DOCUMENTATION"]
 (.node (.node (.node (.node .nil
     k!"setInitialSdDelayConfig_INITIAL_OFFER_BEHAVIOR_InitialSdDelayConfig" [k!"INITIAL-OFFER-BEHAVIOR"]
     .nil)
    k!"setMultidimensionalTime_MAXIMUM_EXECUTION_TIME_MultidimensionalTime" [k!"MAXIMUM-EXECUTION-TIME"]
    .nil)
   k!"setMultidimensionalTime_MINIMUM_EXECUTION_TIME_MultidimensionalTime" [k!"MINIMUM-EXECUTION-TIME"]
   (.node (.node .nil
     k!"setMultidimensionalTime_NOMINAL_EXECUTION_TIME_MultidimensionalTime" [k!"NOMINAL-EXECUTION-TIME"]
     .nil)
    k!"setRequestResponseDelay_REQUEST_RESPONSE_DELAY_RequestResponseDelay" [k!"REQUEST-RESPONSE-DELAY"]
    .nil))
  k!"writeInstantiationRTEEventProps_InstantiationTimingEventProps_L1772" [k!"REFINED-EVENT-IREF"]
  (.node (.node (.node .nil
     k!"setDiagEventDebounceMonitorInternal_DiagEventDebounceMonitorInternal" [k!"DIAG-EVENT-DEBOUNCE-MONITOR-INTERNAL"]
     .nil)
    k!"setRModeInAtomicSwcInstanceRef_MODE_IREF_RModeInAtomicSwcInstanceRef" [k!"MODE-IREF"]
    .nil)
   k!"setSwPointerTargetProps_SW_POINTER_TARGET_PROPS_SwPointerTargetProps" [k!"SW-POINTER-TARGET-PROPS"]
   (.node .nil
    k!"writeBswExternalTriggerOccurredEvent_BswExternalTriggerOccurredEvent" [k!"BSW-EXTERNAL-TRIGGER-OCCURRED-EVENT"]
    .nil))))

def tagTable51 : Bst (List Key) :=
 .node tagTable49 k!"writeModeErrorBehavior_MODE_USER_ERROR_BEHAVIOR_ModeErrorBehavior" [k!"MODE-USER-ERROR-BEHAVIOR"] tagTable50

def tagTable52 : Bst (List Key) :=
 .node tagTable48 k!"setSocketConnectionIpduIdentifier_SocketConnectionIpduIdentifier" [k!"SOCKET-CONNECTION-IPDU-IDENTIFIER"] tagTable51

def tagTable53 : Bst (List Key) :=
 (.node (.node (.node (.node (.node .nil
     k!"writeDataPrototypeInPortInterfaceRef_DataPrototypeInPortInterfaceRef" [k!"DATA-PROTOTYPE-IN-PORT-INTERFACE-REF"]
     .nil)
    k!"writeDiagnosticStorageConditionNeeds_DiagnosticStorageConditionNeeds" [k!"DIAGNOSTIC-STORAGE-CONDITION-NEEDS"]
    .nil)
   k!"writeEthernetCommunicationController_EthernetCommunicationController" [k!"ETHERNET-COMMUNICATION-CONTROLLER"]
   (.node (.node .nil
     k!"writeIncludedModeDeclarationGroupSet_IncludedModeDeclarationGroupSet" [k!"INCLUDED-MODE-DECLARATION-GROUP-SET"]
     .nil)
    k!"writeIoHwAbstractionServerAnnotation_IoHwAbstractionServerAnnotation" [k!"IO-HW-ABSTRACTION-SERVER-ANNOTATION"]
    .nil))
  k!"writeModeErrorBehavior_MODE_MANAGER_ERROR_BEHAVIOR_ModeErrorBehavior" [k!"MODE-MANAGER-ERROR-BEHAVIOR"]
  (.node (.node (.node .nil
     k!"writeSecureOnBoardCommunicationNeeds_SecureOnBoardCommunicationNeeds" [k!"SECURE-ON-BOARD-COMMUNICATION-NEEDS"]
     .nil)
    k!"setCanClusterBusOffRecovery_BUS_OFF_RECOVERY_CanClusterBusOffRecovery" [k!"BUS-OFF-RECOVERY"]
    .nil)
   k!"setMultiLanguageOverviewParagraph_DESC_MultiLanguageOverviewParagraph" [k!"DESC"]
   (.node .nil
    k!"setMultidimensionalTime_BEST_CASE_EXECUTION_TIME_MultidimensionalTime" [k!"BEST-CASE-EXECUTION-TIME"]
    .nil)))
 k!"setMultidimensionalTime_ESTIMATED_EXECUTION_TIME_MultidimensionalTime" [k!"ESTIMATED-EXECUTION-TIME"]
 (.node (.node (.node (.node .nil
     k!"writeSwcInternalBehaviorPerInstanceMemories_SwcInternalBehavior_L3233" [k!"PER-INSTANCE-MEMORY"]
     .nil)
    k!"setChildElementRxIdentifierRange_RX_IDENTIFIER_RANGE_RxIdentifierRange" [k!"RX-IDENTIFIER-RANGE"]
    .nil)
   k!"setEventControlledTiming_EVENT_CONTROLLED_TIMING_EventControlledTiming" [k!"EVENT-CONTROLLED-TIMING"]
   (.node (.node .nil
     k!"setMultidimensionalTime_WORST_CASE_EXECUTION_TIME_MultidimensionalTime" [k!"WORST-CASE-EXECUTION-TIME"]
     .nil)
    k!"writeDataPrototypeTransformationProps_DataPrototypeTransformationProps" [k!"DATA-PROTOTYPE-TRANSFORMATION-PROPS"]
    .nil))
  k!"writeDtcStatusChangeNotificationNeeds_DtcStatusChangeNotificationNeeds" [k!"DTC-STATUS-CHANGE-NOTIFICATION-NEEDS"]
  (.node (.node (.node .nil
     k!"writeFlexrayAbsolutelyScheduledTiming_FlexrayAbsolutelyScheduledTiming" [k!"FLEXRAY-ABSOLUTELY-SCHEDULED-TIMING"]
     .nil)
    k!"writeModeSwitchEventTriggeredActivity_ModeSwitchEventTriggeredActivity" [k!"MODE-SWITCH-EVENT-TRIGGERED-ACTIVITY"]
    .nil)
   k!"writePModeGroupInAtomicSWCInstanceRef_PModeGroupInAtomicSwcInstanceRef" [k!"P-MODE-GROUP-IN-ATOMIC-SWC-INSTANCE-REF"]
   (.node .nil
    k!"writeRModeGroupInAtomicSWCInstanceRef_RModeGroupInAtomicSWCInstanceRef" [k!"R-MODE-GROUP-IN-ATOMIC-SWC-INSTANCE-REF"]
    .nil))))

def tagTable54 : Bst (List Key) :=
 (.node (.node (.node (.node (.node .nil
     k!"setMultiLanguageOverviewParagraph_CHANGE_MultiLanguageOverviewParagraph" [k!"CHANGE"]
     .nil)
    k!"setMultiLanguageOverviewParagraph_REASON_MultiLanguageOverviewParagraph" [k!"REASON"]
    .nil)
   k!"writeSwcInternalBehaviorExclusiveAreaPolicies_SwcInternalBehavior_L3934" [k!"SWC-EXCLUSIVE-AREA-POLICY"]
   (.node (.node .nil
     k!"setInfrastructureServices_INFRASTRUCTURE_SERVICES_InfrastructureServices" [k!"INFRASTRUCTURE-SERVICES"]
     .nil)
    k!"writeEndToEndTransformationDescription_EndToEndTransformationDescription" [k!"END-TO-END-TRANSFORMATION-DESCRIPTION"]
    .nil))
  k!"writeRoleBasedBswModuleEntryAssignment_RoleBasedBswModuleEntryAssignment" [k!"ROLE-BASED-BSW-MODULE-ENTRY-ASSIGNMENT"]
  (.node (.node (.node .nil
     k!"writeSecureCommunicationFreshnessProps_SecureCommunicationFreshnessProps" [k!"SECURE-COMMUNICATION-FRESHNESS-PROPS"]
     .nil)
    k!"writeBswModuleDescriptionBswModuleDependencies_BswModuleDescription_L5193" [k!"BSW-MODULE-DEPENDENCY"]
    .nil)
   k!"writeRunnableEntityAsynchronousServerCallResultPoint_RunnableEntity_L3172" [k!"ASYNCHRONOUS-SERVER-CALL-RESULT-POINT"]
   (.node .nil
    k!"writeAsynchronousServerCallReturnsEvent_AsynchronousServerCallReturnsEvent" [k!"ASYNCHRONOUS-SERVER-CALL-RETURNS-EVENT"]
    .nil)))
 k!"writeComplexDeviceDriverSwComponentType_ComplexDeviceDriverSwComponentType" [k!"COMPLEX-DEVICE-DRIVER-SW-COMPONENT-TYPE"]
 (.node (.node (.node (.node .nil
     k!"writeEcucMultiplicityConfigurationClass_EcucMultiplicityConfigurationClass" [k!"ECUC-MULTIPLICITY-CONFIGURATION-CLASS"]
     .nil)
    k!"writeEndToEndTransformationComSpecProps_EndToEndTransformationComSpecProps" [k!"END-TO-END-TRANSFORMATION-COM-SPEC-PROPS"]
    .nil)
   k!"writeEndToEndTransformationISignalProps_EndToEndTransformationISignalProps" [k!"END-TO-END-TRANSFORMATION-I-SIGNAL-PROPS"]
   (.node (.node .nil
     k!"writeSenderReceiverToSignalGroupMapping_SenderReceiverToSignalGroupMapping" [k!"SENDER-RECEIVER-TO-SIGNAL-GROUP-MAPPING"]
     .nil)
    k!"writeSignalServiceTranslationEventProps_SignalServiceTranslationEventProps" [k!"SIGNAL-SERVICE-TRANSLATION-EVENT-PROPS"]
    .nil))
  k!"writeTransmissionAcknowledgementRequest_TransmissionAcknowledgementRequest" [k!"TRANSMISSION-ACKNOWLEDGE"]
  (.node (.node (.node .nil
     k!"setComponentInSystemInstanceRef_COMPONENT_IREF_ComponentInSystemInstanceRef" [k!"COMPONENT-IREF"]
     .nil)
    k!"setMultiLanguageOverviewParagraph_ITEM_LABEL_MultiLanguageOverviewParagraph" [k!"ITEM-LABEL"]
    .nil)
   k!"writeDiagnosticCommunicationManagerNeeds_DiagnosticCommunicationManagerNeeds" [k!"DIAGNOSTIC-COMMUNICATION-MANAGER-NEEDS"]
   (.node .nil
    k!"writeEndToEndProtectionVariablePrototype_EndToEndProtectionVariablePrototype" [k!"END-TO-END-PROTECTION-VARIABLE-PROTOTYPE"]
    .nil))))

def tagTable55 : Bst (List Key) :=
 .node tagTable53 k!"writeSignalServiceTranslationPropsSet_SignalServiceTranslationPropsSet" [k!"SIGNAL-SERVICE-TRANSLATION-PROPS-SET"] tagTable54

def tagTable56 : Bst (List Key) :=
 (.node (.node (.node (.node (.node .nil
     k!"setRModeInAtomicSwcInstanceRef_DISABLED_MODE_IREF_RModeInAtomicSwcInstanceRef" [k!"DISABLED-MODE-IREF"]
     .nil)
    k!"setTransmissionModeTiming_TRANSMISSION_MODE_TRUE_TIMING_TransmissionModeTiming" [k!"TRANSMISSION-MODE-TRUE-TIMING"]
    .nil)
   k!"writeCompositeRuleBasedValueSpecification_CompositeRuleBasedValueSpecification" [k!"COMPOSITE-RULE-BASED-VALUE-SPECIFICATION"]
   (.node (.node .nil
     k!"writeRuleBasedValueSpecification_RULE_BASED_VALUES_RuleBasedValueSpecification" [k!"RULE-BASED-VALUES"]
     .nil)
    k!"writeSenderReceiverInterfaceInvalidationPolicies_SenderReceiverInterface_L4673" [k!"INVALIDATION-POLICY"]
    .nil))
  k!"writeSignalServiceTranslationElementProps_SignalServiceTranslationElementProps" [k!"SIGNAL-SERVICE-TRANSLATION-ELEMENT-PROPS"]
  (.node (.node (.node .nil
     k!"writeSwcBswSynchronizedModeGroupPrototype_SwcBswSynchronizedModeGroupPrototype" [k!"SWC-BSW-SYNCHRONIZED-MODE-GROUP-PROTOTYPE"]
     .nil)
    k!"writeVariableAndParameterInterfaceMapping_VariableAndParameterInterfaceMapping" [k!"VARIABLE-AND-PARAMETER-INTERFACE-MAPPING"]
    .nil)
   k!"setFlexrayFifoConfiguration_FLEXRAY_FIFO_CONFIGURATION_FlexrayFifoConfiguration" [k!"FLEXRAY-FIFO-CONFIGURATION"]
   (.node .nil
    k!"setSecureCommunicationProps_SECURE_COMMUNICATION_PROPS_SecureCommunicationProps" [k!"SECURE-COMMUNICATION-PROPS"]
    .nil)))
 k!"setTransmissionModeTiming_TRANSMISSION_MODE_FALSE_TIMING_TransmissionModeTiming" [k!"TRANSMISSION-MODE-FALSE-TIMING"]
 (.node (.node (.node (.node .nil
     k!"writeBswAsynchronousServerCallReturnsEvent_BswAsynchronousServerCallReturnsEvent" [k!"BSW-ASYNCHRONOUS-SERVER-CALL-RETURNS-EVENT"]
     .nil)
    k!"writeUserDefinedTransformationComSpecProps_UserDefinedTransformationComSpecProps" [k!"USER-DEFINED-TRANSFORMATION-COM-SPEC-PROPS"]
    .nil)
   k!"writeApplicationRuleBasedValueSpecification_ApplicationRuleBasedValueSpecification" [k!"APPLICATION-RULE-BASED-VALUE-SPECIFICATION"]
   (.node (.node .nil
     k!"writeCanControllerConfigurationRequirements_CanControllerConfigurationRequirements" [k!"CAN-CONTROLLER-CONFIGURATION-REQUIREMENTS"]
     .nil)
    k!"writeDoIpRoutingActivationConfirmationNeeds_DoIpRoutingActivationConfirmationNeeds" [k!"DO-IP-ROUTING-ACTIVATION-CONFIRMATION-NEEDS"]
    .nil))
  k!"writeSecureCommunicationAuthenticationProps_SecureCommunicationAuthenticationProps" [k!"SECURE-COMMUNICATION-AUTHENTICATION-PROPS"]
  (.node (.node (.node .nil
     k!"setPOperationInAtomicSwcInstanceRef_OPERATION_IREF_POperationInAtomicSwcInstanceRef" [k!"OPERATION-IREF"]
     .nil)
    k!"setROperationInAtomicSwcInstanceRef_OPERATION_IREF_ROperationInAtomicSwcInstanceRef" [k!"OPERATION-IREF"]
    .nil)
   k!"writeDoIpRoutingActivationAuthenticationNeeds_DoIpRoutingActivationAuthenticationNeeds" [k!"DO-IP-ROUTING-ACTIVATION-AUTHENTICATION-NEEDS"]
   (.node .nil
    k!"writePTriggerInAtomicSwcTypeInstanceRef_TRIGGER_IREF_PTriggerInAtomicSwcTypeInstanceRef" [k!"TRIGGER-IREF"]
    .nil))))

def tagTable57 : Bst (List Key) :=
 (.node (.node (.node (.node (.node .nil
     k!"setPModeGroupInAtomicSwcInstanceRef_SWC_MODE_GROUP_IREF_PModeGroupInAtomicSwcInstanceRef" [k!"SWC-MODE-GROUP-IREF"]
     .nil)
    k!"setTransmissionModeDeclaration_TRANSMISSION_MODE_DECLARATION_TransmissionModeDeclaration" [k!"TRANSMISSION-MODE-DECLARATION"]
    .nil)
   k!"writePTriggerInAtomicSwcTypeInstanceRef_SWC_TRIGGER_IREF_PTriggerInAtomicSwcTypeInstanceRef" [k!"SWC-TRIGGER-IREF"]
   (.node (.node .nil
     k!"setCanControllerFdConfiguration_CAN_CONTROLLER_FD_CONFIGURATION_CanControllerFdConfiguration" [k!"CAN-CONTROLLER-FD-CONFIGURATION"]
     .nil)
    k!"setCanControllerXlConfiguration_CAN_CONTROLLER_XL_CONFIGURATION_CanControllerXlConfiguration" [k!"CAN-CONTROLLER-XL-CONFIGURATION"]
    .nil))
  k!"setTransmissionModeDeclaration_TRANSMISSION_MODE_DECLARATION_TransmissionModeDeclaration_L9098" [k!"TRANSMISSION-MODE-CONDITION"]
  (.node (.node (.node .nil
     k!"setVariableInAtomicSWCTypeInstanceRef_AUTOSAR_VARIABLE_IREF_VariableInAtomicSWCTypeInstanceRef" [k!"AUTOSAR-VARIABLE-IREF"]
     .nil)
    k!"setVariableDataPrototypeInSystemInstanceRef_SENDER_IREF_VariableDataPrototypeInSystemInstanceRef" [k!"SENDER-IREF"]
    .nil)
   k!"setParameterInAtomicSWCTypeInstanceRef_AUTOSAR_PARAMETER_IREF_ParameterInAtomicSWCTypeInstanceRef" [k!"AUTOSAR-PARAMETER-IREF"]
   (.node .nil
    k!"setVariableDataPrototypeInSystemInstanceRef_RECEIVER_IREF_VariableDataPrototypeInSystemInstanceRef" [k!"RECEIVER-IREF"]
    .nil)))
 k!"setModeInBswModuleDescriptionInstanceRef_DISABLED_IN_MODE_IREF_ModeInBswModuleDescriptionInstanceRef" [k!"DISABLED-IN-MODE-IREF"]
 (.node (.node (.node (.node .nil
     k!"writeDataPrototypeInClientServerInterfaceInstanceRef_DataPrototypeInClientServerInterfaceInstanceRef" [k!"DATA-PROTOTYPE-IN-CLIENT-SERVER-INTERFACE-REF"]
     .nil)
    k!"setVariableDataPrototypeInSystemInstanceRef_DATA_ELEMENT_IREF_VariableDataPrototypeInSystemInstanceRef" [k!"DATA-ELEMENT-IREF"]
    .nil)
   k!"setVariableDataPrototypeInSystemInstanceRef_TRANSLATION_TARGET_VariableDataPrototypeInSystemInstanceRef" [k!"TRANSLATION-TARGET"]
   (.node (.node .nil
     k!"writeRunnableEntityInCompositionInstanceRef_RUNNABLE_ENTITY_IREF_RunnableEntityInCompositionInstanceRef" [k!"RUNNABLE-ENTITY-IREF"]
     .nil)
    k!"setCanControllerFdConfigurationRequirements_CAN_CONTROLLER_FD_REQUIREMENTS_CanControllerFdConfigurationRequirements" [k!"CAN-CONTROLLER-FD-REQUIREMENTS"]
    .nil))
  k!"setCanControllerXlConfigurationRequirements_CAN_CONTROLLER_XL_REQUIREMENTS_CanControllerXlConfigurationRequirements" [k!"CAN-CONTROLLER-XL-REQUIREMENTS"]
  (.node (.node (.node .nil
     k!"writeVariableDataPrototypeInCompositionInstanceRef_IMPLICIT_DATA_ACCESS_IREF_VariableDataPrototypeInCompositionInstanceRef" [k!"IMPLICIT-DATA-ACCESS-IREF"]
     .nil)
    k!"writeInnerDataPrototypeGroupInCompositionInstanceRef_DATA_PROTOTYPE_GROUP_IREF_InnerDataPrototypeGroupInCompositionInstanceRef" [k!"DATA-PROTOTYPE-GROUP-IREF"]
    .nil)
   k!"setApplicationCompositeElementInPortInterfaceInstanceRef_LEAF_ELEMENT_IREF_ApplicationCompositeElementInPortInterfaceInstanceRef" [k!"LEAF-ELEMENT-IREF"]
   (.node .nil
    k!"writeInnerRunnableEntityGroupInCompositionInstanceRef_RUNNABLE_ENTITY_GROUP_IREF_InnerRunnableEntityGroupInCompositionInstanceRef" [k!"RUNNABLE-ENTITY-GROUP-IREF"]
    .nil))))

def tagTable58 : Bst (List Key) :=
 .node tagTable56 k!"setModeInBswModuleDescriptionInstanceRef_MODE_IREF_ModeInBswModuleDescriptionInstanceRef" [k!"MODE-IREF"] tagTable57

def tagTable59 : Bst (List Key) :=
 .node tagTable55 k!"writeFunctionInhibitionAvailabilityNeeds_FunctionInhibitionAvailabilityNeeds" [k!"FUNCTION-INHIBITION-AVAILABILITY-NEEDS"] tagTable58

def tagTable60 : Bst (List Key) :=
 .node tagTable52 k!"writeBswInternalTriggerOccurredEvent_BswInternalTriggerOccurredEvent" [k!"BSW-INTERNAL-TRIGGER-OCCURRED-EVENT"] tagTable59

def tagTable61 : Bst (List Key) :=
 .node tagTable45 k!"writeCompositionSwComponentType_CompositionSwComponentType" [k!"COMPOSITION-SW-COMPONENT-TYPE"] tagTable60

def tagTable62 : Bst (List Key) :=
 .node tagTable30 k!"writeModeDeclarationGroup_ModeDeclarationGroup" [k!"MODE-DECLARATION-GROUP"] tagTable61

/-- the tags of the elements a writer method adds to the element it is given -/
def tagTable : Bst (List Key) := tagTable62

end Verif.Gen
